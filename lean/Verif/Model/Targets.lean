import Verif.Model.Commands
import Verif.Model.Buildozer
import Verif.Model.Walk
/-
Model of the targets of buildozer: which rules of a file a target means, and the commands that add and delete rules
(/repo/edit/buildozer.go:211-283, 952-995, /repo/build/rule.go:45-97, /repo/edit/edit.go:286-352).

A `*build.Rule` points to a call in the tree. Here it is the identity of the statement and the path of slots (the order in which
`WalkOnce` visits them) from the statement to the call. Statements carry an identity (a number), which stands for the pointer to the
statement: it stays with the statement when others are inserted or deleted.
-/
namespace Verif.Target
open Verif Verif.Syntax Verif.Walk Verif.Edit Verif.Cmd Verif.Rewrite

/-- `build.File` as the commands see it (build/syntax.go:117-127): the statements with their identities, and an identity that is not
in use. Only `Stmt` is modelled. -/
structure Tree where
  stmts : List (Nat × Expr)
  next : Nat

/-- `f.Stmt` (build/syntax.go:117-127) -/
def Tree.exprs (t : Tree) : List Expr := t.stmts.map (·.2)

/-- A `*build.Rule` (build/rule.go:27-30): the statement and the path to the call. -/
structure Ptr where
  stmt : Nat
  path : List Nat
deriving DecidableEq

/-- build/rule.go:45-69: the paths to the calls that are not inside other calls, in the order of `Walk`. The number is a recursion
budget. -/
def callPaths : Nat → Expr → List (List Nat)
  | 0, _ => []
  | n + 1, e =>
    match e with
    | .call .. => [[]]
    | e => (slots e).zipIdx.flatMap fun q => (callPaths n q.1).map (q.2 :: ·)

/-- the node at the end of a path; nil if there is none (the pointer `Rule.Call`, build/rule.go:27-30) -/
def nodeAt : List Nat → Expr → Expr
  | [], e => e
  | i :: p, e => match (slots e)[i]? with
    | some x => nodeAt p x
    | none => .nil

/-- the tree in which the node at the end of the path was changed (the commands change `Rule.Call` in place, build/rule.go:27-30) -/
def updateAt (g : Expr → Expr) : List Nat → Expr → Expr
  | [], e => g e
  | i :: p, e => match (slots e)[i]? with
    | some x => withSlots e ((slots e).set i (updateAt g p x))
    | none => e

/-- the call a rule points to (build/rule.go:27-30) -/
def Tree.callAt (t : Tree) (r : Ptr) : Expr :=
  match t.stmts.find? (fun q => q.1 = r.stmt) with
  | some q => nodeAt r.path q.2
  | none => .nil

/-- build/rule.go:37-69: all the rules (`File.rules` with a predicate on the call) -/
def Tree.rules (t : Tree) (p : Expr → Bool) : List Ptr :=
  t.stmts.flatMap fun q => ((callPaths (size q.2) q.2).filter fun path => p (nodeAt path q.2)).map fun path => ⟨q.1, path⟩

/-- the kind of a call (build/rule.go:167-188) -/
def callKind : Expr → Bytes
  | .call _ x .. => kindOf x
  | _ => []

/-- build/rule.go:71-78 `Rules` -/
def Tree.rulesOfKind (t : Tree) (kind : Bytes) : List Ptr := t.rules fun c => kind = [] || callKind c = kind

/-- the lines of the function of a call contain the line (build/rule.go:83-84) -/
def coversLine (n : Int) : Expr → Bool
  | .call _ x .. => decide ((x.startPos.line : Int) ≤ n) && decide (n ≤ (x.endPos.line : Int))
  | _ => false

/-- build/rule.go:81-90 `RuleAt` -/
def Tree.ruleAt (t : Tree) (n : Int) : Option Ptr :=
  match t.rules (coversLine n) with
  | [r] => some r
  | _ => none

/-- the value of decimal digits; `none` if there are other characters (strconv.Atoi, edit.go:299) -/
def digits : Bytes → Nat → Option Nat
  | [], acc => some acc
  | c :: l, acc => if 48 ≤ c ∧ c ≤ 57 then digits l (acc * 10 + (c.toNat - 48)) else none

/-- strconv.Atoi, with 64 bits (called in edit.go:301 and buildozer.go:966) -/
def atoi (s : Bytes) : Option Int :=
  let neg := s.head? = some 45
  let ds := if s.head? = some 45 ∨ s.head? = some 43 then s.drop 1 else s
  if ds = [] then none
  else match digits ds 0 with
    | none => none
    | some n =>
      if neg then (if n ≤ 2 ^ 63 then some (-(n : Int)) else none) else if n < 2 ^ 63 then some (n : Int) else none

/-- edit.go:297-304: the line number of a name `%<LINENUM>`, -1 otherwise -/
def lineOf (name : Bytes) : Int :=
  if hasPrefix name b!"%" then (atoi (name.drop 1)).getD (-1) else -1

/-- edit.go:306-325: is this statement the one that is looked for? -/
def isWanted (implicit name : Bytes) : Expr → Bool
  | .call c x p l e a b => decide (ruleName implicit x l = name) || decide ((x.startPos.line : Int) = lineOf name) ||
      (decide (name = b!"__pkg__") && isFunctionCall (.call c x p l e a b) b!"package")
  | _ => false

/-- edit.go:296-325 `IndexOfRuleByName`: the index -/
def indexOfRule (dir : Option Bytes) (name : Bytes) (stmts : List Expr) : Option Nat :=
  stmts.findIdx? (isWanted (implicitRuleName dir stmts) name)

/-- a pointer to the statement with the index (edit.go:313-315) -/
def Tree.ptr (t : Tree) (i : Nat) : Option Ptr := (t.stmts[i]?).map fun q => ⟨q.1, []⟩

/-- a new statement (edit.go:238-245 and 143-174, insertion after the first `k` statements) -/
def Tree.insert (t : Tree) (k : Nat) (e : Expr) : Tree := ⟨t.stmts.take k ++ (t.next, e) :: t.stmts.drop k, t.next + 1⟩

/-- edit.go:143-174 `PackageDeclaration` -/
def Tree.package (t : Tree) : Tree × Ptr :=
  match existingPackage t.exprs with
  | some i => (t, (t.ptr i).getD ⟨t.next, []⟩)
  | none => (t.insert (packagePlace t.exprs) (.call {} (.ident { name := b!"package" }) {} [] {} false false), ⟨t.next, []⟩)

/-- edit.go:286-292 `FindRuleByName`; it may add a package declaration -/
def Tree.findRule (dir : Option Bytes) (t : Tree) (name : Bytes) : Tree × Option Ptr :=
  if name = b!"__pkg__" then ((t.package).1, some (t.package).2)
  else (t, (indexOfRule dir name t.exprs).bind t.ptr)

/-- edit.go:331-338: a call of `exports_files` whose first argument contains the file -/
def exports (name : Bytes) : Expr → Bool
  | .call _ _ _ (x :: _) .. => (listFind x name []).isSome
  | _ => false

/-- edit.go:329-340 `FindExportedFile` -/
def Tree.findExported (t : Tree) (name : Bytes) : Option Ptr :=
  (t.rulesOfKind b!"exports_files").find? fun r => exports name (t.callAt r)

/-- buildozer.go:952-974 `expandTargets`; the tree may get a package declaration; `none` is an error -/
def expandTargets (dir : Option Bytes) (t : Tree) (rule : Bytes) : Tree × Option (List Ptr) :=
  let r := t.findRule dir rule
  match r.2 with
  | some p => (r.1, some [p])
  | none =>
    let t := r.1
    match t.findExported rule with
    | some p => (t, some [p])
    | none =>
      if rule = b!"all" ∨ rule = b!"*" then (t, some (t.rulesOfKind []))
      else if hasPrefix rule b!"%" then
        match atoi (rule.drop 1) with
        | some n => (t, (t.ruleAt n).map fun p => [p])
        | none => (t, some (t.rulesOfKind (rule.drop 1)))
      else (t, none)

/-- buildozer.go:976-990 `filterRules` -/
def filterRules (types : List Bytes) (t : Tree) (rules : List Ptr) : List Ptr :=
  if types = [] then rules else rules.filter fun r => decide (callKind (t.callAt r) ∈ types)

/-- a call as the state of a command, without editing of variables (buildozer.go:1219) -/
def stOf : Expr → Option St
  | .call c x _ l .. => some ⟨c, x, l, []⟩
  | _ => none

/-- the call after a command (buildozer.go:1219) -/
def putSt (st : St) : Expr → Expr
  | .call _ _ p _ e a b => .call st.comments st.fn p st.args e a b
  | e => e

/-- what a command (without editing of variables) does to a call (buildozer.go:1219) -/
def applyTo (run : St → Res) (e : Expr) : Expr :=
  match stOf e with
  | some st => putSt (run st).st e
  | none => e

/-- one command for one rule (buildozer.go:1219): the tree afterwards, whether a file was returned, whether there was an error. -/
def onRule (run : St → Res) (t : Tree) (r : Ptr) : Tree × Bool × Bool :=
  match stOf (t.callAt r) with
  | none => (t, false, false)
  | some st => (⟨t.stmts.map fun q => if q.1 = r.stmt then (q.1, updateAt (applyTo run) r.path q.2) else q, t.next⟩, (run st).file, (run st).err)

/-- buildozer.go:211-213 `cmdDelete`, edit.go:343-352 `DeleteRule`: only a statement can be deleted -/
def cmdDelete (t : Tree) (r : Ptr) : Tree := ⟨t.stmts.filter fun q => !(decide (q.1 = r.stmt) && decide (r.path = [])), t.next⟩

/-- buildozer.go:262-281 `findInsertionIndex`: `none` is an error; `some none`: at the end of the file; `some (some k)`: after `k`
statements. `more` are the arguments after the name. -/
def insertionIndex (dir : Option Bytes) (t : Tree) (more : List Bytes) : Option (Option Nat) :=
  match more with
  | op :: rel :: _ =>
    match indexOfRule dir rel t.exprs with
    | none => some none
    | some i => if op = b!"before" then some (some i) else if op = b!"after" then some (some (i + 1)) else none
  | _ => some none

/-- the new call (buildozer.go:249-251) -/
def newCall (kind name : Bytes) : Expr :=
  .call {} (.ident { name := kind }) {} (setAttr b!"name" (.string { value := name }) []) {} false false

/-- edit.go:264-270, 273-282: the place of a new rule that is not placed relative to another -/
def endPlace (kind : Bytes) (stmts : List Expr) : Nat :=
  if indexAfterLast kind stmts = 0 then beforeComments stmts else indexAfterLast kind stmts

/-- buildozer.go:237-260 `cmdNew`; the flag is the error -/
def cmdNew (dir : Option Bytes) (kind name : Bytes) (more : List Bytes) (t : Tree) : Tree × Bool :=
  match insertionIndex dir t more with
  | none => (t, true)
  | some place =>
    let r := t.findRule dir name
    if r.2.isSome then (r.1, true)
    else match place with
      | none => (r.1.insert (endPlace kind r.1.exprs) (newCall kind name), false)
      | some k => (r.1.insert k (newCall kind name), false)

/-- a command for rules as a command of `rewrite` (buildozer.go:1208-1235) -/
def ruleCommand (run : St → Res) : Buildozer.Command Tree Ptr Unit where
  perRule := true
  run t r := match r with
    | some r => ⟨(onRule run t r).1, (onRule run t r).2.1, if (onRule run t r).2.2 then some () else none⟩
    | none => ⟨t, false, none⟩

/-- a target of `rewrite` (buildozer.go:1186-1207) -/
def expandOf (dir : Option Bytes) (types : List Bytes) (rule : Bytes) (t : Tree) : Tree × Except Unit (List Ptr) :=
  match expandTargets dir t rule with
  | (t, some rules) => (t, .ok (filterRules types t rules))
  | (t, none) => (t, .error ())

end Verif.Target
