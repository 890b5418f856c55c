import Verif.Model.ListEdit
import Verif.Model.Rules
import Verif.Model.Print
import Verif.Model.Comments
/-
Model of the commands of buildozer, /repo/edit/buildozer.go:84-824.

A command changes the call of one rule in place, and (with `-edit-variables`) the right-hand sides of global assignments. Its state
is the call (comments, function, arguments) and the right-hand sides of the variables; it is assumed that the rule is not itself
inside the right-hand side of a variable (otherwise Go's pointers alias). Output records and messages are not modelled; an error is
the flag `err`. The tables of attribute types (/repo/edit/types.go, /repo/lang/tables.gen.go) are parameters.
-/
namespace Verif.Cmd
open Verif Verif.Syntax Verif.Edit

/-- The parameters of a command: flags and tables (edit/types.go:28-61, edit/edit.go:34-39) and the package. -/
structure Env where
  /-- `ShortenLabelsFlag` -/
  short : Bool
  /-- `DeleteWithComments` -/
  dwc : Bool
  /-- types.go:30-48 `IsList` -/
  isList : Bytes → Bool
  /-- types.go:51-53 `IsIntList` -/
  isIntList : Bytes → Bool
  /-- types.go:56-61 `IsString` -/
  isString : Bytes → Bool
  /-- `CmdEnvironment.Pkg` -/
  pkg : Bytes

/-- What a command works on: the call of `CmdEnvironment.Rule` and `CmdEnvironment.Vars` (buildozer.go:74-82), a map from names to
the right-hand sides of the assignments. -/
structure St where
  comments : Comments
  fn : Expr
  args : List Expr
  vars : List (Bytes × Expr)

/-- What a command returns: the state afterwards (changes are made in place, also if the command fails), whether it returned a file,
and whether it returned an error. (the results of the `cmd` functions, buildozer.go:84-824) -/
structure Res where
  st : St
  file : Bool
  err : Bool

/-- the result `env.File, nil` (buildozer.go:97) -/
def done (st : St) : Res := ⟨st, true, false⟩
/-- the result `nil, nil` (buildozer.go:234) -/
def nothing (st : St) : Res := ⟨st, false, false⟩
/-- the result `nil, err` (buildozer.go:517) -/
def fails (st : St) : Res := ⟨st, false, true⟩

/-- buildozer.go:607-613 `getStringValue`; the same as the loop of edit.go:710-712 -/
def getStringValue (value : Bytes) : Bytes :=
  let u := Quote.unquote value
  if u.err = false then u.s else value

/-- buildozer.go:615-622 `getStringExpr` -/
def getStringExpr (E : Env) (value : Bytes) : Expr :=
  let u := Quote.unquote value
  if u.err = false then .string { value := shortenLabel E.short u.s E.pkg, triple := u.triple }
  else .string { value := shortenLabel E.short value E.pkg }

/-- the value of the map at a key (edit.go:832-843) -/
def lookup (name : Bytes) : List (Bytes × Expr) → Option Expr
  | [] => none
  | (n, e) :: l => if n = name then some e else lookup name l

/-- the assignment to the right-hand side of the variable (edit.go:877-885) -/
def assignVar (name : Bytes) (v : Expr) (l : List (Bytes × Expr)) : List (Bytes × Expr) :=
  l.map fun q => if q.1 = name then (q.1, v) else q

/-- edit.go:825-828 `attributeMustNotBeSorted` -/
def mustNotBeSorted (name : Bytes) : Bool := name = b!"args"

/-- edit.go:832-843 `getVariable`: the name of the variable and the right-hand side of its assignment -/
def getVariable (e : Expr) (vars : List (Bytes × Expr)) : Option (Bytes × Expr) :=
  match e with
  | .ident i => (lookup i.name vars).map fun rhs => (i.name, rhs)
  | _ => none

/-- edit.go:877-885 `AddValueToListAttribute` -/
def addToAttr (E : Env) (name : Bytes) (item : Expr) (st : St) : St :=
  match getVariable (attr name st.args) st.vars with
  | some (v, rhs) => { st with vars := assignVar v (addValueToList E.dwc rhs E.pkg item (!mustNotBeSorted name)) st.vars }
  | none => { st with args := setAttr name (addValueToList E.dwc (attr name st.args) E.pkg item (!mustNotBeSorted name)) st.args }

/-- buildozer.go:89-94: the item to be added -/
def itemOf (E : Env) (name val : Bytes) : Expr :=
  if E.isIntList name then .literal {} {} val else getStringExpr E val

/-- buildozer.go:86-98 `cmdAdd` -/
def cmdAdd (E : Env) (name : Bytes) (vals : List Bytes) (st : St) : Res :=
  let st := vals.foldl (fun st v => addToAttr E name (itemOf E name v) st) st
  done { st with args := resolveAttr E.dwc name E.pkg st.args }

/-- edit.go:889-905 `MoveAllListAttributeValues`: the state and whether it succeeds. The result of `RenameAttribute` is ignored. -/
def moveAll (E : Env) (old new : Bytes) (st : St) : St × Bool :=
  if (attr old st.args).isNil then (st, false)
  else if (attr new st.args).isNil then ({ st with args := (renameAttribute old new st.args).getD st.args }, true)
  else match attr old st.args with
    | .list _ _ l _ _ =>
      let st := l.foldl (fun st x => addToAttr E new x st) st
      ({ st with args := (delAttr old st.args).1 }, true)
    | _ => (st, false)

/-- buildozer.go:226-229: one value -/
def moveOne (E : Env) (old new : Bytes) (s : St × Bool) (val : Bytes) : St × Bool :=
  let r := listAttributeDelete E.dwc old val E.pkg s.1.args
  match r.2 with
  | some d => (addToAttr E new (.string d) { s.1 with args := r.1 }, true)
  | none => ({ s.1 with args := r.1 }, s.2)

/-- buildozer.go:215-235 `cmdMove` -/
def cmdMove (E : Env) (old new : Bytes) (vals : List Bytes) (st : St) : Res :=
  if vals = [b!"*"] then
    let r := moveAll E old new st
    if r.2 then done r.1 else fails r.1
  else
    let r := vals.foldl (moveOne E old new) (st, false)
    if r.2 then done r.1 else nothing r.1

/-- buildozer.go:412-417 `attrKeysForPattern` -/
def keysFor (pattern : Bytes) (args : List Expr) : List Bytes := if pattern = b!"*" then attrKeys args else [pattern]

/-- buildozer.go:423-430: one attribute of `remove *` -/
def removeKey (s : List Expr × Bool) (key : Bytes) : List Expr × Bool :=
  if key = b!"name" then s
  else ((delAttr key s.1).1, s.2 || !(delAttr key s.1).2.isNil)

/-- an empty list (buildozer.go:448) -/
def isEmptyList : Expr → Bool
  | .list _ _ [] _ _ => true
  | _ => false

/-- buildozer.go:441-450: one attribute of `remove attr values` -/
def removeValues (E : Env) (vals : List Bytes) (args : List Expr) (key : Bytes) : List Expr :=
  let args := vals.foldl (fun args v => (listAttributeDelete E.dwc key v E.pkg args).1) args
  let args := resolveAttr E.dwc key E.pkg args
  if isEmptyList (attr key args) then (delAttr key args).1 else args

/-- buildozer.go:419-457 `cmdRemove` -/
def cmdRemove (E : Env) (pattern : Bytes) (vals : List Bytes) (st : St) : Res :=
  if vals = [] then
    if pattern = b!"*" then
      let r := (attrKeys st.args).foldl removeKey (st.args, false)
      if r.2 then done { st with args := r.1 } else nothing { st with args := r.1 }
    else
      let r := delAttr pattern st.args
      if r.2.isNil then nothing { st with args := r.1 } else done { st with args := r.1 }
  else
    let keys := keysFor pattern st.args
    let args := keys.foldl (removeValues E vals) st.args
    if keys = [] then nothing { st with args } else done { st with args }

/-- buildozer.go:459-479 `cmdRemoveIfEqual` -/
def cmdRemoveIfEqual (E : Env) (name val : Bytes) (st : St) : Res :=
  match attr name st.args with
  | .string s => if Labels.equal s.value val E.pkg then done { st with args := (delAttr name st.args).1 } else nothing st
  | .ident i => if i.name = val then done { st with args := (delAttr name st.args).1 } else nothing st
  | _ => nothing st

/-- buildozer.go:513-520 `cmdRename` -/
def cmdRename (old new : Bytes) (st : St) : Res :=
  match renameAttribute old new st.args with
  | some args => done { st with args }
  | none => fails st

/-- buildozer.go:591: `len(args) == 1 && strings.HasPrefix(args[0], "glob(")` -/
def isGlob : List Bytes → Bool
  | [a] => hasPrefix a b!"glob("
  | _ => false

/-- buildozer.go:581-605 `getAttrValueExpr` -/
def attrValue (E : Env) (name : Bytes) (args : List Bytes) : Expr :=
  if name = b!"kind" then .nil
  else if E.isIntList name then .list {} {} (args.map fun v => .literal {} {} v) {} false
  else if E.isList name && !isGlob args then
    .list {} {} (args.map fun v => getStringExpr E v) {} false
  else match args with
    | [] => .ident { name := b!"None" }
    | a :: _ => if E.isString name then getStringExpr E a else .ident { name := a }

/-- buildozer.go:526-533: one attribute of `replace`. (`ListReplace` changes the value in place.) -/
def replaceKey (E : Env) (oldV newV : Bytes) (args : List Expr) (key : Bytes) : List Expr :=
  match attr key args with
  | .nil => args
  | .string s => if Labels.equal s.value oldV E.pkg then setAttr key (attrValue E key [newV]) args else args
  | e => setAttr key (listReplace E.short oldV newV E.pkg e).1 args

/-- buildozer.go:522-536 `cmdReplace` -/
def cmdReplace (E : Env) (pattern oldV newV : Bytes) (st : St) : Res :=
  done { st with args := (keysFor pattern st.args).foldl (replaceKey E (getStringValue oldV) (getStringValue newV)) st.args }

/-- A compiled regular expression with a template, as `stringSubstitute` uses them: `find` is `FindStringSubmatchIndex` (the first two
indices), `expand` is `ExpandString` for that match. Package regexp is not modelled. (edit.go:773-786) -/
structure Regexp where
  find : Bytes → Option (Nat × Nat)
  expand : Bytes → Bytes

/-- edit.go:773-786 `stringSubstitute`; `none`: no match. (Taking nothing before index 0 or after the end adds nothing.) -/
def substitute (re : Regexp) (s : Bytes) : Option Bytes :=
  match re.find s with
  | none => none
  | some (a, b) => some ((if a > 0 then s.take a else []) ++ re.expand s ++ (if b < s.length then s.drop b else []))

/-- edit.go:759-767: one element -/
def substElem (re : Regexp) : Expr → Expr
  | .string s =>
    match substitute re s.value with
    | some v => .string { value := v, comments := s.comments }
    | none => .string s
  | e => e

/-- edit.go:755-771 `ListSubstitute`: its effect on the expression -/
def listSubstitute (re : Regexp) (e : Expr) : Expr := onListsIncludingSelects (fun l => l.map (substElem re)) e

/-- buildozer.go:545-553: one attribute of `substitute` -/
def substituteKey (E : Env) (re : Regexp) (args : List Expr) (key : Bytes) : List Expr :=
  match attr key args with
  | .nil => args
  | .string s =>
    match substitute re s.value with
    | some v => setAttr key (getStringExpr E v) args
    | none => args
  | e => setAttr key (listSubstitute re e) args

/-- buildozer.go:538-556 `cmdSubstitute`; `none`: the regular expression does not compile -/
def cmdSubstitute (E : Env) (pattern : Bytes) (re : Option Regexp) (st : St) : Res :=
  match re with
  | none => fails st
  | some re => done { st with args := (keysFor pattern st.args).foldl (substituteKey E re) st.args }

/-- build/rule.go:190-203 `SetKind`: the function of the call afterwards -/
def setKind (kind : Bytes) (fn : Expr) : Expr :=
  match splitAll 46 kind with
  | [] => fn
  | n :: ns => ns.foldl (fun e m => .dot {} e {} fn.startPos m) (.ident { name := n, namePos := fn.startPos })

/-- buildozer.go:558-567 `cmdSet`. `set kind` without a value panics in Go (`args[0]`); here it does nothing. -/
def cmdSet (E : Env) (name : Bytes) (vals : List Bytes) (st : St) : Res :=
  if name = b!"kind" then
    match vals with
    | k :: _ => done { st with fn := setKind k st.fn }
    | [] => done st
  else done { st with args := setAttr name (attrValue E name vals) st.args }

/-- buildozer.go:569-579 `cmdSetIfAbsent` -/
def cmdSetIfAbsent (E : Env) (name : Bytes) (vals : List Bytes) (st : St) : Res :=
  if name = b!"kind" then fails st
  else if (attr name st.args).isNil then done { st with args := setAttr name (attrValue E name vals) st.args }
  else done st

/-- buildozer.go:807-824 `copyAttributeBetweenRules`; `src` is the value of the attribute of the other rule (`none`: there is no
such rule; nil: it has no such attribute). The value is printed and parsed again. `fuel` bounds the model of the parser. -/
def copyAttr (fuel : Nat) (name : Bytes) (src : Option Expr) (st : St) : Res :=
  match src with
  | none => fails st
  | some e =>
    if e.isNil then fails st
    else match Print.formatString e with
      | none => fails st
      | some out =>
        match Comm.parseFile fuel .build out with
        | some f => done { st with args := setAttr name (f.stmts.headD .nil) st.args }
        | none => fails st

/-- buildozer.go:624-629 `cmdCopy` -/
def cmdCopy (fuel : Nat) (name : Bytes) (src : Option Expr) (st : St) : Res := copyAttr fuel name src st

/-- buildozer.go:631-640 `cmdCopyNoOverwrite` -/
def cmdCopyNoOverwrite (fuel : Nat) (name : Bytes) (src : Option Expr) (st : St) : Res :=
  if (attr name st.args).isNil then copyAttr fuel name src st else done st

/-- strings.SplitN(x, ":", 2), if there is a colon (buildozer.go:654) -/
def splitColon : Bytes → Option (Bytes × Bytes)
  | [] => none
  | c :: l => if c = 58 then some ([], l) else (splitColon l).map fun q => (c :: q.1, q.2)

/-- the entries of the dictionary that is the attribute, `none` if it is something else or missing (buildozer.go:647-651) -/
def dictOf : Expr → Option (List Expr)
  | .dict _ _ l _ _ => some l
  | _ => none

/-- the dictionary with other entries; a new one if there is none (buildozer.go:647-651) -/
def withEntries (l : List Expr) : Expr → Expr
  | .dict c p _ e m => .dict c p l e m
  | _ => .dict {} {} l {} false

/-- buildozer.go:653-665, 713-721: the loops of `dict_add` (`over := false`) and `dict_set` (`over := true`): the entries and whether
an argument without a colon was met -/
def dictLoop (E : Env) (over : Bool) : List Bytes → List Expr → List Expr × Bool
  | [], l => (l, false)
  | x :: xs, l =>
    match splitColon x with
    | none => (l, true)
    | some (k, v) =>
      if over || (dictGet k l).isNil then dictLoop E over xs (dictSet k (getStringExpr E v) l).1 else dictLoop E over xs l

/-- buildozer.go:643-668 `cmdDictAdd` and 703-724 `cmdDictSet`. If the attribute is a dictionary it is modified in place, so the
entries set before an error stay. -/
def cmdDictPut (E : Env) (over : Bool) (name : Bytes) (xs : List Bytes) (st : St) : Res :=
  let old := attr name st.args
  let r := dictLoop E over xs ((dictOf old).getD [])
  if r.2 then
    if (dictOf old).isSome then fails { st with args := setAttr name (withEntries r.1 old) st.args } else fails st
  else done { st with args := setAttr name (withEntries r.1 old) st.args }

/-- buildozer.go:676-695: the loop of `set_select` over pairs of a key and a value; `none`: odd number of arguments (checked first in
Go) -/
def selectLoop (E : Env) (name : Bytes) : List Bytes → List Expr → Option (List Expr)
  | [], l => some l
  | [_], _ => none
  | k :: v :: xs, l =>
    if E.isList name then
      let cur := if (dictGet k l).isNil then .list {} {} [] {} false else dictGet k l
      selectLoop E name xs (dictSet k (addValueToList E.dwc cur E.pkg (getStringExpr E v) (!mustNotBeSorted name)) l).1
    else selectLoop E name xs (dictSet k (getStringExpr E v) l).1

/-- buildozer.go:670-700 `cmdSetSelect` -/
def cmdSetSelect (E : Env) (name : Bytes) (xs : List Bytes) (st : St) : Res :=
  match selectLoop E name xs [] with
  | none => fails st
  | some l => done { st with args := setAttr name (.call {} (.ident { name := b!"select" }) {} [.dict {} {} l {} false] {} false false) st.args }

/-- buildozer.go:727-749 `cmdDictRemove` -/
def cmdDictRemove (name : Bytes) (keys : List Bytes) (st : St) : Res :=
  match dictOf (attr name st.args) with
  | none => done st
  | some l =>
    let l := keys.foldl (fun l k => (dictDelete k l).1) l
    let args := setAttr name (withEntries l (attr name st.args)) st.args
    if l = [] then done { st with args := (delAttr name args).1 } else done { st with args }

/-- buildozer.go:752-778 `cmdDictReplaceIfEqual` -/
def cmdDictReplaceIfEqual (E : Env) (name key oldV newV : Bytes) (st : St) : Res :=
  match dictOf (attr name st.args) with
  | none => done st
  | some l =>
    let set := done { st with args := setAttr name (withEntries (dictSet key (getStringExpr E (getStringValue newV)) l).1 (attr name st.args)) st.args }
    match dictGet key l with
    | .nil => fails st
    | .string s => if Labels.equal s.value (getStringValue oldV) E.pkg then set else done st
    | .ident i => if i.name = getStringValue oldV then set else done st
    | _ => done st

/-- buildozer.go:781-805 `cmdDictListAdd` -/
def cmdDictListAdd (E : Env) (name key : Bytes) (vals : List Bytes) (st : St) : Res :=
  let old := attr name st.args
  let l := (dictOf old).getD []
  let prev := if (dictGet key l).isNil then .list {} {} [] {} false else dictGet key l
  let v := vals.foldl (fun e v => addValueToList E.dwc e E.pkg (getStringExpr E v) true) prev
  done { st with args := setAttr name (withEntries (dictSet key v l).1 old) st.args }

end Verif.Cmd
