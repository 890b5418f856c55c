import Verif.Model.LoadEdit
/-
Model of the commands new_load and replace_load of buildozer, /repo/edit/buildozer.go:284-308.

The arguments of a command are a slice of its tokens, which all targets share (`rewrite`, buildozer.go:1212-1218, and
`appendCommands`, 1326-1352), and `splitLoadArgs` writes to it. So a command returns the arguments as they are afterwards.
Simplification: the targets are processed one after the other (Go processes files concurrently, which is a data race here).
-/
namespace Verif.LoadCmd
open Verif Verif.Syntax Verif.Edit

/-- `strings.SplitN(s, "=", 2)`, if there are two parts (buildozer.go:290) -/
def splitEq : Bytes → Option (Bytes × Bytes)
  | [] => none
  | c :: l => if c = 61 then some ([], l) else (splitEq l).map fun p => (c :: p.1, p.2)

/-- buildozer.go:286-297 `splitLoadArgs`: `from` and `to`. The first is the argument slice itself, modified. -/
def splitLoadArgs (args : List Bytes) : List Bytes × List Bytes :=
  (args.map fun a => match splitEq a with
      | some p => p.2
      | none => a,
   args.map fun a => match splitEq a with
      | some p => p.1
      | none => a)

/-- buildozer.go:299-303 `cmdNewLoad`: the statements and the arguments afterwards; `none` is the panic (of a missing argument, which is
excluded before). The parameters are those of `insertLoad`. -/
def cmdNewLoad (ord1 ord2 : SymMap → SymMap) (args : List Bytes) (stmts : List Expr) : Option (List Expr × List Bytes) :=
  match args with
  | [] => none
  | path :: syms =>
    (insertLoad ord1 ord2 stmts path (splitLoadArgs syms).1 (splitLoadArgs syms).2).map fun r => (r, path :: (splitLoadArgs syms).1)

/-- buildozer.go:305-309 `cmdReplaceLoad` -/
def cmdReplaceLoad (ord1 ord2 : SymMap → SymMap) (args : List Bytes) (stmts : List Expr) : Option (List Expr × List Bytes) :=
  match args with
  | [] => none
  | path :: syms =>
    (replaceLoad ord1 ord2 stmts path (splitLoadArgs syms).1 (splitLoadArgs syms).2).map fun r => (r, path :: (splitLoadArgs syms).1)

/-- buildozer.go:1200-1233: one command on several targets, one after the other: the files afterwards -/
def onTargets (cmd : List Bytes → List Expr → Option (List Expr × List Bytes)) : List Bytes → List (List Expr) → Option (List (List Expr))
  | _, [] => some []
  | args, f :: fs =>
    match cmd args f with
    | none => none
    | some r => (onTargets cmd r.2 fs).map (r.1 :: ·)

end Verif.LoadCmd
