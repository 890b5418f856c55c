import Verif.Model.Commands
/-
Model of the command substitute_load of buildozer, /repo/edit/buildozer.go:310-329.
-/
namespace Verif.LoadCmd
open Verif Verif.Syntax Verif.Cmd

/-- buildozer.go:317-326: one statement. Only the value of the module string changes (its token stays). -/
def substituteLoad1 (re : Regexp) : Expr → Expr
  | .load c p m f t r fc =>
    match substitute re m.value with
    | some v => .load c p { m with value := v } f t r fc
    | none => .load c p m f t r fc
  | e => e

/-- buildozer.go:310-329 `cmdSubstituteLoad`: the statements afterwards; `none`: the regular expression does not compile (then it is an
error, and the file is not changed) -/
def cmdSubstituteLoad (re : Option Regexp) (stmts : List Expr) : Option (List Expr) :=
  re.map fun re => stmts.map (substituteLoad1 re)

end Verif.LoadCmd
