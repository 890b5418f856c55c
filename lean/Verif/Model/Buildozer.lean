import Verif.Basic
/-
Model of /repo/edit/buildozer.go: `rewrite` (one file) and `Buildozer` (the workers).
-/
namespace Verif.Buildozer
open Verif

/-! ### one file -/

/-- What a command did to the file: the tree afterwards (commands change it in place, even if they fail), whether it returned a
file (`newf != nil`), and the error. (edit/buildozer.go:1208-1235) -/
structure Outcome (σ ε : Type) where
  tree : σ
  changed : Bool
  err : Option ε

/-- buildozer.go:1208-1215: a command, with `PerRule` of its `CommandInfo` and its function applied to its arguments; `none` as a
rule is Go's nil. -/
structure Command (σ ρ ε : Type) where
  perRule : Bool
  run : σ → Option ρ → Outcome σ ε

/-- buildozer.go:1186-1207: the commands for one target; `expand` is `expandTargets` (which may add a package declaration to
the file) followed by `filterRules`. -/
structure Target (σ ρ ε : Type) where
  expand : σ → σ × Except ε (List ρ)
  commands : List (Command σ ρ ε)

/-- The state of the loops of `rewrite`: tree, `changed`, `errs`, and `stop` if the function has returned. (edit/buildozer.go:1170-1236) -/
structure Run (σ ε : Type) where
  tree : σ
  changed : Bool := false
  errs : List ε := []
  stop : Bool := false

variable {σ ρ ε : Type}

/-- buildozer.go:1216-1234: one execution of a command -/
def runOne (keepGoing : Bool) (c : Command σ ρ ε) (s : Run σ ε) (r : Option ρ) : Run σ ε :=
  if s.stop then s
  else
    let o := c.run s.tree r
    match o.err with
    | some e =>
      if keepGoing then { s with tree := o.tree, errs := s.errs ++ [e], changed := s.changed || o.changed }
      else { s with tree := o.tree, errs := [e], stop := true }
    | none => { s with tree := o.tree, changed := s.changed || o.changed }

/-- buildozer.go:1208-1235: one command on the rules -/
def runCommand (keepGoing : Bool) (rules : List ρ) (s : Run σ ε) (c : Command σ ρ ε) : Run σ ε :=
  (if c.perRule then rules.map some else [none]).foldl (runOne keepGoing c) s

/-- buildozer.go:1186-1236: one target -/
def runTarget (keepGoing : Bool) (s : Run σ ε) (t : Target σ ρ ε) : Run σ ε :=
  if s.stop then s
  else match t.expand s.tree with
    | (f, .error e) =>
      if keepGoing then t.commands.foldl (runCommand keepGoing []) { s with tree := f, errs := s.errs ++ [e] }
      else { s with tree := f, errs := s.errs ++ [e], stop := true }
    | (f, .ok rules) => t.commands.foldl (runCommand keepGoing rules) { s with tree := f }

/-- The environment of `rewrite`: the contents that were read, the parser, what happens before writing, and whether writing fails. (edit/buildozer.go:1134-1265) -/
structure Env (σ ε : Type) where
  /-- build.Parse -/
  parse : Bytes → Except ε σ
  /-- RemoveEmptyPackage and RemoveEmptyUseRepoCalls, buildozer.go:1240-1241 -/
  clean : σ → σ
  /-- Buildify -/
  buildify : σ → Except ε Bytes
  /-- the file is standard input -/
  isStdin : Bool
  /-- error of `EditFile` -/
  editErr : Option ε
  /-- error of `WriteFile` -/
  writeErr : Option ε

/-- What `rewrite` does: the errors, `modified`, what it writes to the standard output and to the file. (edit/buildozer.go:1075-1080, 1134-1265) -/
structure Result (ε : Type) where
  errs : List ε
  modified : Bool := false
  printed : Option Bytes := none
  written : Option Bytes := none

/-- buildozer.go:1170-1265 `rewrite`, from the parser on. Records are not modelled. -/
def rewrite (keepGoing stdout : Bool) (env : Env σ ε) (targets : List (Target σ ρ ε)) (data : Bytes) : Result ε :=
  match env.parse data with
  | .error e => { errs := [e] }
  | .ok f =>
    let s := targets.foldl (runTarget keepGoing) { tree := f }
    if s.stop then { errs := s.errs }
    else if !s.changed then { errs := s.errs }
    else match env.buildify (env.clean s.tree) with
      | .error e => { errs := [e] }
      | .ok ndata =>
        if stdout || env.isStdin then { errs := s.errs, printed := some ndata }
        else if data = ndata then { errs := s.errs }
        else match env.editErr with
          | some e => { errs := [e] }
          | none => match env.writeErr with
            | some e => { errs := [e], written := some ndata }
            | none => { errs := s.errs, modified := true, written := some ndata }

/-! ### all files -/

/-- A worker (buildozer.go:1477-1481). -/
inductive Worker (F R : Type) where
  /-- waiting for a file -/
  | idle
  /-- has received a file -/
  | got (f : F)
  /-- has read it -/
  | read (f : F) (data : Option Bytes)
  /-- has written it and will send the result -/
  | ready (f : F) (r : R)
  /-- the channel was closed -/
  | exited

/-- The state of `Buildozer`: the file system, the files that have not been sent (in the order of the iteration over the map),
whether `data` is closed, the workers, the channel `results` and what has been received from it. (edit/buildozer.go:1442-1548) -/
structure State (F R N : Type) where
  fs : N → Option Bytes
  toSend : List F
  closed : Bool := false
  workers : List (Worker F R)
  buf : List (F × R) := []
  got : List (F × R) := []

/-- What the commands do to one file: `work f data` is the new contents (if it is to be written) and the result. `path f` is the
name under which the file of `f` is found (buildozer.go:1148-1168); which files exist does not change during the run. -/
structure Job (F R N : Type) where
  path : F → N
  work : F → Option Bytes → Option Bytes × R

variable {F R N : Type}

open Classical in
/-- the file system after writing (file.WriteFile in edit/buildozer.go:1260) -/
noncomputable def writeTo (fs : N → Option Bytes) (n : N) : Option Bytes → N → Option Bytes
  | none => fs
  | some d => fun m => if m = n then some d else fs m

/-- buildozer.go:1476-1508: the steps of the main goroutine and of the workers. `numFiles` is the capacity of `results`; `data` is
unbuffered, so sending on it is one step of the main goroutine and a worker that waits. Reading and writing a file are separate
steps. -/
inductive Step (job : Job F R N) (numFiles : Nat) : State F R N → State F R N → Prop
  /-- `data <- commandsForFile{file, commands}` -/
  | send (s f rest a b) : s.toSend = f :: rest → s.workers = a ++ .idle :: b →
      Step job numFiles s { s with toSend := rest, workers := a ++ .got f :: b }
  /-- `close(data)` -/
  | close (s) : s.toSend = [] → s.closed = false → Step job numFiles s { s with closed := true }
  /-- `range data` ends -/
  | exit (s a b) : s.closed = true → s.workers = a ++ .idle :: b → Step job numFiles s { s with workers := a ++ .exited :: b }
  | read (s f a b) : s.workers = a ++ .got f :: b → Step job numFiles s { s with workers := a ++ .read f (s.fs (job.path f)) :: b }
  | write (s f d a b) : s.workers = a ++ .read f d :: b →
      Step job numFiles s { s with fs := writeTo s.fs (job.path f) (job.work f d).1, workers := a ++ .ready f (job.work f d).2 :: b }
  /-- `results <- …`: possible if the channel is not full -/
  | push (s f r a b) : s.workers = a ++ .ready f r :: b → s.buf.length < numFiles →
      Step job numFiles s { s with buf := s.buf ++ [(f, r)], workers := a ++ .idle :: b }
  /-- `<-results`: after `close(data)` -/
  | receive (s q rest) : s.closed = true → s.buf = q :: rest → s.got.length < numFiles →
      Step job numFiles s { s with buf := rest, got := s.got ++ [q] }

/-- runs (edit/buildozer.go:1476-1508) -/
inductive Steps (job : Job F R N) (numFiles : Nat) : State F R N → State F R N → Nat → Prop
  | refl (s) : Steps job numFiles s s 0
  | step (s t u n) : Steps job numFiles s t n → Step job numFiles t u → Steps job numFiles s u (n + 1)

/-- the main goroutine has received all results (edit/buildozer.go:1492-1508) -/
def finished (numFiles : Nat) (s : State F R N) : Prop := s.closed = true ∧ s.got.length = numFiles

/-- what matters of a result for the exit code (edit/buildozer.go:1527-1548) -/
structure Outcome' where
  hasErrs : Bool
  modified : Bool

/-- buildozer.go:1496-1497 and 1527-1548: the exit code, from the results in the order they were received -/
def exitCode (stdout nonReadonly : Bool) (results : List Outcome') : Nat :=
  let hasErrors := results.foldl (fun b r => b || r.hasErrs) false
  let fileModified := results.foldl (fun b r => b || r.modified) false
  if hasErrors then 2
  else if fileModified || stdout then 0
  else if nonReadonly then 3
  else 0

end Verif.Buildozer
