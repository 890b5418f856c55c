import Verif.Model.Fix
import Verif.Model.Labels
/-
Model of the command print of buildozer, /repo/edit/buildozer.go:331-410, and of the line printed for it, 1413-1439.

The warning about a missing attribute on stderr is not modelled.
-/
namespace Verif.PrintCmd
open Verif Verif.Syntax Verif.Edit

/-- What the command sees: buildozer.go:74-82 `CmdEnvironment` and the library functions used: `build.FormatString` (`fmt`),
`strconv.Itoa` on a line number (`dec`; lines above 2³¹, which Go would wrap, are ignored) and the verb `%q` (`quoted`). -/
structure World where
  fmt : Expr → Bytes
  dec : Nat → Bytes
  quoted : Bytes → Bytes
  pkg : Bytes
  path : Bytes
  /-- the directory of the file and its statements, which determine the implicit name of a rule -/
  dir : Option Bytes
  stmts : List Expr

/-- api_proto `Output_Record_Field` as filled in by buildozer.go:331-410 -/
inductive Field where
  | text (t : Bytes) (quoteWhenPrinting : Bool)
  | number (n : Nat)
  | missing
  | list (l : List Bytes)

/-- buildozer.go:376-402: the value of an attribute -/
def valueField (W : World) : Expr → Field
  | .nil => .missing
  | .literal _ _ t => .text t false
  | .ident i => .text i.name false
  | .string s => .text s.value true
  | .list c p l e m =>
    match Fix.stringValues l with
    | some vs => .list vs
    | none => .text (W.fmt (.list c p l e m)) false
  | v => .text (W.fmt v) false

/-- buildozer.go:338-403: one field of the record of a call with arguments `l`; `none`: the command returns without a record -/
def field (W : World) (c : Comments) (x : Expr) (p : Pos) (l : List Expr) (e : EndN) (a b : Bool) (str : Bytes) : Option Field :=
  let name := ruleName (implicitRuleName W.dir W.stmts) x l
  if str = b!"kind" then some (.text (kindOf x) false)
  else if str = b!"name" then some (.text name false)
  else if str = b!"label" then
    if name ≠ [] then some (.text (Labels.format { repository := [], package := W.pkg, target := name }) false) else none
  else if str = b!"rule" then some (.text (W.fmt (.call c x p l e a b)) false)
  else if str = b!"startline" then some (.number p.line)
  else if str = b!"endline" then some (.number e.pos.line)
  else if str = b!"path" then some (.text W.path false)
  else if str = b!"attrs" then some (.list (attrKeys l))
  else some (valueField W (attr str l))

/-- the loop buildozer.go:338-403 -/
def fields (f : Bytes → Option Field) : List Bytes → Option (List Field)
  | [] => some []
  | s :: l =>
    match f s with
    | none => none
    | some v => (fields f l).map (v :: ·)

/-- buildozer.go:331-410 `cmdPrint`: the record; `[]` is no record (buildozer.go:1217-1219) -/
def cmdPrint (W : World) (call : Expr) (args : List Bytes) : List Field :=
  match call with
  | .call c x p l e a b => (fields (field W c x p l e a b) (if args = [] then [b!"name", b!"kind"] else args)).getD []
  | _ => []

/-- buildozer.go:1416-1435: one field of the line -/
def fieldText (W : World) : Field → Bytes
  | .text t q => if q && t.contains 32 then W.quoted t else t
  | .number n => W.dec n
  | .missing => b!"(missing)"
  | .list l => b!"[" ++ joinWith 32 l ++ b!"]"

/-- buildozer.go:1413-1439 `printRecord`, of the records that are not empty (1217-1219) -/
def printRecord (W : World) (r : List Field) : Bytes :=
  if r.isEmpty then [] else joinWith 32 (r.map (fieldText W)) ++ [10]

end Verif.PrintCmd
