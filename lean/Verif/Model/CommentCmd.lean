import Verif.Model.Commands
import Verif.Model.Split
/-
Model of the commands comment, remove_comment and print_comment of buildozer, /repo/edit/buildozer.go:100-209 and 481-511.

The state of a command is that of `Model/Commands`. Go's messages are not modelled; a wrong number of arguments, which panics
(and which buildozer excludes before), is `none`.
-/
namespace Verif.Cmd
open Verif Verif.Syntax Verif.Edit

/-- buildozer.go:103: `strings.Replace(str, "\\n", "\n", -1)` -/
def commentText (arg : Bytes) : Bytes := Buildozer.replacePair 92 110 [10] arg

/-- buildozer.go:106-109: one comment for every line of the text -/
def commentLines (arg : Bytes) : List Comment := (splitAll 10 (commentText arg)).map fun l => { token := b!"# " ++ l }

/-- buildozer.go:105: must the comment be on lines of its own? `eol` is `PreferEOLComments` -/
def fullLine (eol : Bool) (arg : Bytes) : Bool := !eol || (commentText arg).contains 10

/-- the first definition of an attribute (build/rule.go:235-248 `AttrDefn`), modified -/
def onDefn (key : Bytes) (f : Comments → IdentN → Pos → Bytes → Bool → Expr → Expr) : List Expr → List Expr
  | [] => []
  | .assign c (.ident i) p o lb r :: l =>
    if i.name ≠ key then .assign c (.ident i) p o lb r :: onDefn key f l else f c i p o lb r :: l
  | x :: l => x :: onDefn key f l

/-- build/rule.go:235-248 `AttrDefn`: comments and value of the first definition -/
def attrDefn (key : Bytes) : List Expr → Option (Comments × Expr)
  | [] => none
  | .assign c (.ident i) _ _ _ r :: l => if i.name ≠ key then attrDefn key l else some (c, r)
  | _ :: l => attrDefn key l

/-- edit.go:486-496: the first string of a list that means the item, modified; is there one? -/
def onFound (item pkg : Bytes) (f : Comments → Comments) : List Expr → List Expr × Bool
  | [] => ([], false)
  | .string s :: l =>
    if Labels.equal s.value item pkg then (.string { s with comments := f s.comments } :: l, true)
    else (.string s :: (onFound item pkg f l).1, (onFound item pkg f l).2)
  | x :: l => (x :: (onFound item pkg f l).1, (onFound item pkg f l).2)

/-- edit.go:393-403, 486-496: the first such string in the lists of a sum, modified -/
def onFoundInLists (item pkg : Bytes) (f : Comments → Comments) : Expr → Expr × Bool
  | .list c p l e m => (.list c p (onFound item pkg f l).1 e m, (onFound item pkg f l).2)
  | .binary c x p o lb y =>
    if o = b!"+" then
      let r := onFoundInLists item pkg f x
      if r.2 then (.binary c r.1 p o lb y, true)
      else (.binary c x p o lb (onFoundInLists item pkg f y).1, (onFoundInLists item pkg f y).2)
    else (.binary c x p o lb y, false)
  | e => (e, false)

/-- edit.go:433-439: the first such string in the lists that are values of dictionary entries, modified -/
def onFoundInEntries (item pkg : Bytes) (f : Comments → Comments) : List Expr → List Expr × Bool
  | [] => ([], false)
  | .keyValue c k p (.list c' p' l e m) :: kvs =>
    let r := onFound item pkg f l
    if r.2 then (.keyValue c k p (.list c' p' r.1 e m) :: kvs, true)
    else (.keyValue c k p (.list c' p' l e m) :: (onFoundInEntries item pkg f kvs).1, (onFoundInEntries item pkg f kvs).2)
  | x :: kvs => (x :: (onFoundInEntries item pkg f kvs).1, (onFoundInEntries item pkg f kvs).2)

/-- edit.go:426-432: the first such string in the arguments of a select, modified -/
def onFoundInArgs (item pkg : Bytes) (f : Comments → Comments) : List Expr → List Expr × Bool
  | .dict c p kvs e m :: rest => (.dict c p (onFoundInEntries item pkg f kvs).1 e m :: rest, (onFoundInEntries item pkg f kvs).2)
  | l => (l, false)

/-- edit.go:406-443: the first such string in the selects of a sum, modified -/
def onFoundInSelects (item pkg : Bytes) (f : Comments → Comments) : Expr → Expr × Bool
  | .binary c x p o lb y =>
    if o = b!"+" then
      let r := onFoundInSelects item pkg f x
      if r.2 then (.binary c r.1 p o lb y, true)
      else (.binary c x p o lb (onFoundInSelects item pkg f y).1, (onFoundInSelects item pkg f y).2)
    else (.binary c x p o lb y, false)
  | .call c (.ident i) p l e a b =>
    if i.name = b!"select" then (.call c (.ident i) p (onFoundInArgs item pkg f l).1 e a b, (onFoundInArgs item pkg f l).2)
    else (.call c (.ident i) p l e a b, false)
  | e => (e, false)

/-- edit.go:508-510 `listOrSelectFind`; the comments of the string found are modified (if there is one) -/
def onListOrSelect (item pkg : Bytes) (f : Comments → Comments) (e : Expr) : Expr :=
  if (onFoundInLists item pkg f e).2 then (onFoundInLists item pkg f e).1
  else if (allSelects e).all plainSelect then (onFoundInSelects item pkg f e).1
  else e

/-- edit.go:508-510 `listOrSelectFind` -/
def listOrSelectFind (e : Expr) (item pkg : Bytes) : Option StringN :=
  listsFind (allLists e ++ allListsFromSelects e) item pkg

/-- buildozer.go:100-138 `cmdComment`; `eol` is `PreferEOLComments` -/
def cmdComment (eol : Bool) (pkg : Bytes) (cargs : List Bytes) (st : St) : Option Res :=
  match cargs with
  | [t] => some (done { st with comments := { st.comments with before := commentLines t } })
  | [a, t] => some (done { st with args := onDefn a (fun c i p o lb r =>
      if fullLine eol t then .assign c (.ident { i with comments := { i.comments with before := commentLines t } }) p o lb r
      else .assign c (.ident i) p o lb (r.setComments { r.comments with suffix := commentLines t })) st.args })
  | [a, v, t] => some (done { st with args := onDefn a (fun c i p o lb r =>
      .assign c (.ident i) p o lb (onListOrSelect v pkg (fun cs =>
        if fullLine eol t then { cs with before := commentLines t } else { cs with suffix := commentLines t }) r)) st.args })
  | _ => none

/-- buildozer.go:481-511 `cmdRemoveComment` -/
def cmdRemoveComment (pkg : Bytes) (cargs : List Bytes) (st : St) : Option Res :=
  match cargs with
  | [] => some (done { st with comments := {} })
  | [a] => some (done { st with args := onDefn a (fun _ i p o lb r =>
      .assign {} (.ident { i with comments := {} }) p o lb (r.setComments {})) st.args })
  | [a, v] => some (done { st with args := onDefn a (fun c i p o lb r =>
      .assign c (.ident i) p o lb (onListOrSelect v pkg (fun _ => {}) r)) st.args })
  | _ => none

/-- buildozer.go:140-151 `commentsText` -/
def commentsText (l : List Comment) : Bytes :=
  (joinWith 32 (l.map fun c => Buildozer.trimSpace (match c.token with | 35 :: t => t | t => t))).map fun b => if b = 10 then 32 else b

/-- What print_comment prints: the fields, or one of two errors. (buildozer.go:153-209) -/
inductive Printed where
  | fields (l : List Bytes)
  | missing
  | missingItem
deriving DecidableEq, Repr

/-- buildozer.go:163-172: a text that is printed only if it is not empty -/
def optionalText (l : List Comment) : List Bytes := if commentsText l = [] then [] else [commentsText l]

/-- buildozer.go:153-209 `cmdPrintComment` -/
def cmdPrintComment (pkg : Bytes) (cargs : List Bytes) (st : St) : Option Printed :=
  match cargs with
  | [] => some (.fields (commentsText st.comments.before :: (optionalText st.comments.suffix ++ optionalText st.comments.after)))
  | [a] =>
    match attrDefn a st.args with
    | none => some .missing
    | some (c, _) => some (.fields [commentsText (c.before ++ c.suffix)])
  | [a, v] =>
    match attrDefn a st.args with
    | none => some .missing
    | some (_, r) =>
      match listOrSelectFind r v pkg with
      | none => some .missingItem
      | some s => some (.fields [commentsText (s.comments.before ++ s.comments.suffix)])
  | _ => none

end Verif.Cmd
