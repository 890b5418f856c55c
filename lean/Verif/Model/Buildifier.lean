import Verif.Model.Strings
/-
Model of /repo/buildifier/buildifier.go (`run`, `processFiles`, `processFile`), /repo/buildifier/config/validation.go,
/repo/buildifier/config/config.go `Validate`, /repo/buildifier/utils and `getFileType` of /repo/build/lex.go.
-/
namespace Verif.Buildifier
open Verif

/-! ### one file -/

/-- utils/diagnostics.go:69-74 `FileDiagnostics`; of the warnings only their number. -/
structure Diag where
  formatted : Bool
  valid : Bool
  warnings : Nat
deriving DecidableEq, Repr

/-- What `processFile` does: diagnostics, exit code, and its effects: contents written to the file, to the standard output, and the
pair of contents the diff program is shown. (buildifier/buildifier.go:283-384) -/
structure Effect where
  diag : Diag
  exit : Nat
  written : Option Bytes := none
  printed : Option Bytes := none
  shown : Option (Bytes × Bytes) := none

/-- The environment of `processFile`: `lint` gives the number of warnings and the tree afterwards (`utils.Lint`), and the operations
that may fail. (buildifier/buildifier.go:283-384) -/
structure Env (σ : Type) where
  /-- utils.GetParser(b.config.InputType); `none` is a syntax error -/
  parse : Bytes → Option σ
  /-- utils.Lint -/
  lint : σ → Nat × σ
  /-- build.Format -/
  format : σ → Bytes
  /-- tf.WriteTemp succeeds -/
  tempOk : Bytes → Bool
  /-- differ.Show succeeds -/
  showOk : Bool
  /-- os.WriteFile succeeds -/
  writeOk : Bool
  /-- writing to the standard output succeeds -/
  stdoutOk : Bool

/-- buildifier.go:280-384 `processFile`. `stdin` is `filename == ""`. Simplification: messages on the standard error are left out. A
write that fails may still change the file: the contents it was asked to write are recorded as written. -/
def processFile {σ : Type} (mode : Bytes) (env : Env σ) (stdin : Bool) (data : Bytes) : Effect :=
  match env.parse data with
  | none => { diag := ⟨false, false, 0⟩, exit := 1 }
  | some f =>
    let w := (env.lint f).1
    let ndata := env.format (env.lint f).2
    let exitCode := if 0 < w then 4 else 0
    let diag : Diag := ⟨true, true, w⟩
    if mode = b!"check" then
      if data ≠ ndata then { diag := { diag with formatted := false }, exit := 4 }
      else { diag := diag, exit := exitCode }
    else if mode = b!"diff" then
      if data = ndata then { diag := diag, exit := exitCode }
      else if !env.tempOk ndata then { diag := diag, exit := 3 }
      else if stdin && !env.tempOk data then { diag := diag, exit := 3 }
      else if !env.showOk then { diag := diag, exit := 4, shown := some (data, ndata) }
      else { diag := diag, exit := exitCode, shown := some (data, ndata) }
    else if mode = b!"pipe" then { diag := diag, exit := exitCode, printed := some ndata }
    else if mode = b!"fix" then
      if data = ndata then { diag := diag, exit := exitCode }
      else if !env.writeOk then { diag := diag, exit := 3, written := some ndata }
      else { diag := diag, exit := exitCode, written := some ndata }
    else if mode = b!"print_if_changed" then
      if data = ndata then { diag := diag, exit := exitCode }
      else if !env.stdoutOk then { diag := diag, exit := 3, printed := some ndata }
      else { diag := diag, exit := exitCode, printed := some ndata }
    else { diag := diag, exit := exitCode }

/-- buildifier.go:256-276: one iteration of the loop of `processFiles`: the diagnostics so far and `exitCode`. `none` is a file that could not
be read. -/
def processStep (s : List Diag × Nat) : Option Effect → List Diag × Nat
  | none => (s.1, 3)
  | some e => (s.1 ++ [e.diag], if e.exit ≠ 0 then e.exit else s.2)

/-- buildifier.go:253-277: the diagnostics and the exit code of all files -/
def processAll (l : List (Option Effect)) : List Diag × Nat := l.foldl processStep ([], 0)

/-- utils/diagnostics.go:92-104 `NewDiagnostics`: the field `Success` -/
def success (l : List Diag) : Bool := l.all fun d => d.formatted && d.warnings == 0

/-- buildifier.go:202-218: the exit code of the program, after all files have been processed -/
def runExit (format : Bytes) (exitCode : Nat) (differOk : Bool) : Nat :=
  let exitCode := if format ≠ [] then 0 else exitCode
  if !differOk then 2 else exitCode

/-- buildifier.go:168-182: standard input is used iff there is no argument or just `-` -/
def useStdin (args : List Bytes) : Bool := args.isEmpty || args = [b!"-"]

/-- buildifier.go:176-178: on standard input `fix` becomes `pipe` -/
def stdinMode (mode : Bytes) : Bytes := if mode = b!"fix" then b!"pipe" else mode

/-! ### all files -/

/-- buildifier.go:224-227: the number of workers -/
def numWorkers (files : Nat) : Nat := min 100 ((files + 9) / 10)

/-- buildifier.go:234-238 `result`, without `err`: contents `none` mean that the file could not be read -/
structure Res (N : Type) where
  file : N
  data : Option Bytes

/-- A reader goroutine (buildifier.go:243-249): the index `j` of the file it is going to read, the result it has read but not sent, and its
channel, which has capacity 1. -/
structure Reader (N : Type) where
  next : Nat
  hold : Option (Res N) := none
  chan : Option (Res N) := none

/-- The state of `processFiles`: the file system, the readers, the number of files processed, whether a phase error occurred, and the results
that have been processed. (buildifier/buildifier.go:221-279) -/
structure State (N : Type) where
  fs : N → Option Bytes
  readers : Nat → Reader N
  count : Nat := 0
  phaseError : Bool := false
  processed : List (Res N) := []

/-- changing the reader `i` (buildifier/buildifier.go:221-279) -/
def setReader {N : Type} (f : Nat → Reader N) (i : Nat) (r : Reader N) : Nat → Reader N := fun k => if k = i then r else f k

open Classical in
/-- the file system after writing (os.WriteFile in buildifier/buildifier.go:283-384) -/
noncomputable def writeTo {N : Type} (fs : N → Option Bytes) (n : N) : Option Bytes → N → Option Bytes
  | none => fs
  | some d => fun m => if m = n then some d else fs m

variable {N : Type}

/-- buildifier.go:221-279 `processFiles`: the steps of the readers and of the main goroutine. `work` is what processing a file writes to it
(`none` if nothing). The main goroutine receives from `ch[i%nworker]`. -/
inductive Step (files : List N) (w : Nat) (work : N → Bytes → Option Bytes) : State N → State N → Prop
  /-- `data, err := os.ReadFile(file)` -/
  | read (s : State N) (i : Nat) (file : N) : i < w → (s.readers i).hold = none → files[(s.readers i).next]? = some file →
      Step files w work s { s with readers := setReader s.readers i { s.readers i with hold := some ⟨file, s.fs file⟩ } }
  /-- `ch[i] <- result{file, data, err}`: possible if the channel is empty -/
  | send (s : State N) (i : Nat) (r : Res N) : i < w → (s.readers i).hold = some r → (s.readers i).chan = none →
      Step files w work s { s with readers := setReader s.readers i ⟨(s.readers i).next + w, none, some r⟩ }
  /-- `res := <-ch[i%nworker]`, with the right file -/
  | process (s : State N) (file : N) (r : Res N) : s.phaseError = false → files[s.count]? = some file →
      (s.readers (s.count % w)).chan = some r → r.file = file →
      Step files w work s { s with
        fs := writeTo s.fs file (r.data.bind (work file))
        readers := setReader s.readers (s.count % w) { s.readers (s.count % w) with chan := none }
        count := s.count + 1
        processed := s.processed ++ [r] }
  /-- the wrong file: `os.Exit(3)` -/
  | phase (s : State N) (file : N) (r : Res N) : s.phaseError = false → files[s.count]? = some file →
      (s.readers (s.count % w)).chan = some r → r.file ≠ file →
      Step files w work s { s with phaseError := true }

/-- runs (buildifier/buildifier.go:221-279) -/
inductive Steps (files : List N) (w : Nat) (work : N → Bytes → Option Bytes) : State N → State N → Nat → Prop
  | refl (s) : Steps files w work s s 0
  | step (s t u n) : Steps files w work s t n → Step files w work t u → Steps files w work s u (n + 1)

/-- buildifier.go:240-253: the state in which the readers start; `j := i` -/
def start (fs : N → Option Bytes) : State N := { fs := fs, readers := fun i => { next := i } }

/-! ### flags -/

/-- validation.go:25-33 `ValidateInputType` -/
def validateInputType (t : Bytes) : Bool :=
  t ∈ [b!"build", b!"bzl", b!"workspace", b!"default", b!"module", b!"auto"]

/-- validation.go:36-50 `ValidateFormat` -/
def validateFormat (format mode : Bytes) : Bool :=
  if format = [] then true
  else if format = b!"text" ∨ format = b!"json" then mode = b!"check"
  else false

/-- validation.go:63-99 `ValidateModes`: the new mode and lint mode; `none` is an error -/
def validateModes (mode lint : Bytes) (dflag : Bool) (additional : List Bytes) : Option (Bytes × Bytes) :=
  if dflag ∧ mode ≠ [] then none
  else
    let mode := if dflag then b!"diff" else mode
    let valid := [b!"check", b!"diff", b!"fix", b!"print_if_changed"] ++ additional
    if mode ≠ [] ∧ mode ∉ valid then none
    else
      let mode := if mode = [] then b!"fix" else mode
      if lint = [] then some (mode, b!"off")
      else if lint = b!"off" ∨ lint = b!"warn" then some (mode, lint)
      else if lint = b!"fix" then if mode ≠ b!"fix" then none else some (mode, lint)
      else none

/-- validation.go:117-127: the three sets; `plus` is a Go map, kept here without repetitions in the order of the flags -/
def splitWarnings : List Bytes → List Bytes × List Bytes × List Bytes
  | [] => ([], [], [])
  | w :: ws =>
    let r := splitWarnings ws
    match w with
    | c :: l =>
      if c = c!"+" then (if l ∈ r.1 then r.1 else l :: r.1, r.2)
      else if c = c!"-" then (r.1, l :: r.2.1, r.2.2)
      else (r.1, r.2.1, w :: r.2.2)
    | [] => (r.1, r.2.1, w :: r.2.2)

/-- validation.go:102-141 `ValidateWarnings`; `ord` is the order of the iteration over the map `plus`; `none` is an error -/
def validateWarnings (ord : List Bytes → List Bytes) (warnings : Bytes) (all default : List Bytes) : Option (List Bytes) :=
  if warnings = [] ∨ warnings = b!"default" then some default
  else if warnings = b!"all" then some all
  else
    let s := splitWarnings (splitAll c!"," warnings)
    if s.2.2 ≠ [] ∧ (s.1 ≠ [] ∨ s.2.1 ≠ []) then none
    else if s.2.2 = [] then some (default.filter (fun w => w ∉ s.2.1) ++ ord s.1)
    else some s.2.2

/-- the flags that `Config.Validate` looks at (buildifier/config/config.go:195-246) -/
structure Config where
  inputType : Bytes
  format : Bytes
  mode : Bytes
  lint : Bytes
  dflag : Bool
  path : Bytes
  warningsList : List Bytes
  warnings : Bytes

/-- config.go:195-246 `Validate`: the mode, the lint mode and the warnings. Simplification: the tables are left out. -/
def validate (ord : List Bytes → List Bytes) (all default : List Bytes) (c : Config) (args : List Bytes) :
    Option (Bytes × Bytes × List Bytes) :=
  if !validateInputType c.inputType then none
  else if !validateFormat c.format c.mode then none
  else match validateModes c.mode c.lint c.dflag [] with
    | none => none
    | some (mode, lint) =>
      if (c.path ≠ [] ∨ mode = b!"print_if_changed") ∧ 1 < args.length then none
      else
        let ws := if c.warnings ≠ [] then c.warningsList ++ [c.warnings] else c.warningsList
        match validateWarnings ord (joinWith c!"," ws) all default with
        | none => none
        | some l => some (mode, lint, l)

/-! ### file types -/

/-- build/syntax.go `FileType` -/
inductive FileType where
  | build | workspace | bzl | default | module
deriving DecidableEq, Repr

/-- Go `filepath.Ext`: the suffix from the last dot on, if there is one in the last element. -/
def pathExt (s : Bytes) : Bytes :=
  if c!"." ∈ afterLast c!"/" s then c!"." :: afterLast c!"." s else []

/-- build/lex.go:125-151 `getFileType`. Simplification: the path separator is `/`, and upper case letters are ASCII. -/
def getFileType (filename : Bytes) : FileType :=
  if filename = [] then .default
  else
    let basename := toLower (pathBase filename)
    let basename := if hasSuffix basename b!".oss" then basename.take (basename.length - 4) else basename
    if basename = b!"module.bazel" ∨ hasSuffix basename b!".module.bazel" then .module
    else
      let ext := pathExt basename
      if ext = b!".bzl" then .bzl
      else if ext = b!".sky" then .default
      else
        let base := basename.take (basename.length - ext.length)
        if ext = b!".build" ∨ base = b!"build" ∨ hasPrefix base b!"build." then .build
        else if ext = b!".workspace" ∨ base = b!"workspace" ∨ hasPrefix base b!"workspace." then .workspace
        else .default

/-- utils/utils.go:83-98 `GetParser` with build/lex.go:65-123 and 157-169 (`Parse`): the type of the parsed file -/
def parserType (inputType filename : Bytes) : FileType :=
  if inputType = b!"build" then .build
  else if inputType = b!"bzl" then .bzl
  else if inputType = b!"auto" then getFileType filename
  else if inputType = b!"workspace" then .workspace
  else if inputType = b!"module" then .module
  else .default

/-- utils/utils.go:30-45 `isStarlarkFile` -/
def isStarlarkFile (name : Bytes) : Bool :=
  let ext := pathExt name
  if ext = b!".bzl" ∨ ext = b!".sky" ∨ ext = b!".star" then true
  else if ext = b!".bazel" ∨ ext = b!".oss" then
    hasPrefix name b!"BUILD." || hasPrefix name b!"WORKSPACE." || hasPrefix name b!"MODULE."
  else name = b!"BUILD" || name = b!"WORKSPACE"

end Verif.Buildifier
