import Verif.Model.Walk
import Verif.Model.Sort
import Verif.Model.LoadEdit
/-
Model of /repo/warn/warn.go: the pipeline that runs the warning functions over a file (`runWarningsFunction`, `DisabledWarning`,
`FileWarnings`).

The warning functions themselves are arbitrary: a warning is any function that inspects the file, may even change it, and returns
findings. Applying a fix (`*r.Old = r.New` for all replacements) and computing a suggestion (`formatWithFix`, `calculateDifference`,
which run the formatter and may change the file) are arbitrary functions as well: `C08` and `C09` are about them.
Not modelled: `makeFinding`'s default URL, `File` and `Actionable` fields, which are constants here; the reader of other files, which
a warning function may consult, is part of the warning function.
-/
namespace Verif.Warn
open Verif Verif.Syntax Verif.Walk Verif.Edit

/-- warn/warn.go:31 `LintMode` -/
inductive Mode where
  | warn | fix | suggest
deriving DecidableEq, Repr

/-- warn/warn.go:45-51 `LinterFinding`, `LinterReplacement`; the replacements are pairs of an address and a new expression. -/
structure LF where
  start : Pos
  end_ : Pos
  message : Bytes
  url : Bytes := []
  replacement : List (Nat × Expr) := []

/-- warn/warn.go:72-78 `Replacement` -/
structure Repl where
  description : Bytes
  start : Nat
  end_ : Nat
  content : Bytes

/-- warn/warn.go:60-70 `Finding` -/
structure Finding where
  start : Pos
  end_ : Pos
  category : Bytes
  message : Bytes
  url : Bytes
  autoFixable : Bool
  replacement : Option Repl := none

/-- What the pipeline is given: the table of warnings (warn/warn.go:120-171 `FileWarningMap`, `MultiFileWarningMap`, `RuleWarningMap`
looked up in this order, through their wrappers), the effect of a fix, and the suggestion for a fix. -/
structure Ops where
  table : Bytes → Option (Expr → List LF × Expr)
  fix : Expr → List (Nat × Expr) → Expr
  suggest : Expr → LF → Repl × Expr

/-- warn/warn.go:312-315 `HasDisablingComment` -/
def hasDisablingComment (e : Expr) (warning : Bytes) : Bool :=
  containsComments e (b!"buildifier: disable=" ++ warning) || containsComments e (b!"buildozer: disable=" ++ warning)

/-- warn/warn.go:327-331: the first line of a node, its comment lines above included -/
def firstLine (e : Expr) : Nat :=
  match e.comments.before with
  | [] => e.startPos.line
  | c :: _ => c.start.line

/-- warn/warn.go:327-334: the last line of a node, its comment lines below included -/
def lastLine (e : Expr) : Nat :=
  match e.comments.after.getLast? with
  | none => e.endPos.line
  | some c => (c.start.add c.token).line

/-- warn/warn.go:319-346 `DisabledWarning` -/
def disabledWarning (f : Expr) (line : Nat) (warning : Bytes) : Bool :=
  walk (fun disabled e _ =>
    if line < firstLine e ∨ line > lastLine e then disabled
    else if hasDisablingComment e warning then true
    else disabled) false f

/-- warn/warn.go:276-309 `runWarningsFunction`: the loop over the findings of one warning, with the file as it changes. -/
def runFindings (o : Ops) (category : Bytes) (mode : Mode) : Expr → List LF → List Finding × Expr
  | f, [] => ([], f)
  | f, w :: ws =>
    if disabledWarning f w.start.line category then runFindings o category mode f ws
    else
      let finding : Finding := ⟨w.start, w.end_, category, w.message, w.url, !w.replacement.isEmpty, none⟩
      if w.replacement.isEmpty then
        let r := runFindings o category mode f ws
        (finding :: r.1, r.2)
      else
        match mode with
        | .fix => runFindings o category mode (o.fix f w.replacement) ws
        | .suggest =>
          let s := o.suggest f w
          let r := runFindings o category mode s.2 ws
          ({ finding with replacement := some s.1 } :: r.1, r.2)
        | .warn =>
          let r := runFindings o category mode f ws
          (finding :: r.1, r.2)

/-- warn/warn.go:363-374: the loop over the warnings. `none` is `os.Exit(1)` on an unknown warning. -/
def runAll (o : Ops) (mode : Mode) : Expr → List Bytes → Option (List Finding × Expr)
  | f, [] => some ([], f)
  | f, w :: ws =>
    match o.table w with
    | none => none
    | some fct =>
      let q := fct f
      let r := runFindings o w mode q.2 q.1
      match runAll o mode r.2 ws with
      | none => none
      | some s => some (r.1 ++ s.1, s.2)

/-- warn/warn.go:375: the comparison of `sort.Slice` -/
def lineLess (a b : Finding) : Bool := decide (a.start.line < b.start.line)

/-- warn/warn.go:349-377 `FileWarnings`: the findings and the file afterwards. `srtS` and `srtF` are `sort.Strings` and `sort.Slice`.
Formatting the file for `ModeSuggest` when no formatted contents are given (warn/warn.go:357-360) rewrites it: `prepare`. -/
def fileWarnings (srtS : List Bytes → List Bytes) (srtF : List Finding → List Finding) (prepare : Expr → Expr) (o : Ops) (f : Expr)
    (enabled : List Bytes) (formatted : Bool) (mode : Mode) : Option (List Finding × Expr) :=
  let f1 := if mode = .suggest ∧ formatted = false then prepare f else f
  match runAll o mode f1 (srtS enabled) with
  | none => none
  | some r => some (srtF r.1, r.2)

end Verif.Warn
