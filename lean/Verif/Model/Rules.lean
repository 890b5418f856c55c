import Verif.Model.Attr
import Verif.Model.Loads
/-
Model of finding, inserting and deleting rules: /repo/build/rule.go and /repo/edit/edit.go, and of the file-level fixes of
/repo/edit/fix.go.

A `*Rule` is a pointer to a call statement; it is the index of the statement here. `dir` is the name of the directory of the file
(`filepath.Base(filepath.Dir(f.Path))`), or `none` if `filepath.Dir(f.Path)` is "." (path/filepath is not modelled).
-/
namespace Verif.Edit
open Verif Verif.Syntax Verif.Rewrite

/-- build/rule.go:167-188 `Kind`, on the function of the call: the names joined by dots; "" if it is not such a chain -/
def kindOf : Expr → Bytes
  | .ident i => i.name
  | .dot _ x _ _ n => kindOfDot x n
  | _ => []
where
  /-- the chain `x` followed by `.suffix` -/
  kindOfDot : Expr → Bytes → Bytes
    | .ident i, s => i.name ++ b!"." ++ s
    | .dot _ x _ _ n, s => kindOfDot x (n ++ b!"." ++ s)
    | _, _ => []

/-- build/rule.go:320-326 `AttrString` -/
def attrString (key : Bytes) (args : List Expr) : Bytes :=
  match attr key args with
  | .string s => s.value
  | _ => []

/-- state of the loop build/rule.go:140-156 of `implicitRuleName`: `none` is an early return of "" -/
def implicitLoop (base : Bytes) : List Expr → Bool → Option Bool
  | [], saw => some saw
  | .call _ x _ l _ _ _ :: stmts, saw =>
    if attrString b!"name" l = base then none
    else if kindOf x ≠ [] ∧ attrString b!"name" l = [] then
      if saw then none else implicitLoop base stmts true
    else implicitLoop base stmts saw
  | _ :: stmts, saw => implicitLoop base stmts saw

/-- build/rule.go:131-161 `implicitRuleName` -/
def implicitRuleName (dir : Option Bytes) (stmts : List Expr) : Bytes :=
  match dir with
  | none => []
  | some base =>
    match implicitLoop base stmts false with
    | some true => base
    | _ => []

/-- build/rule.go:37-43 `File.Rule` followed by 204-212 `Name`: the name of a call in a file with the given implicit name -/
def ruleName (implicit : Bytes) (x : Expr) (args : List Expr) : Bytes :=
  if attrString b!"name" args = [] ∧ kindOf x ≠ b!"package" then implicit else attrString b!"name" args

/-- edit.go:356-370 `DeleteRuleByName` -/
def deleteRuleByName (dir : Option Bytes) (name : Bytes) (stmts : List Expr) : List Expr :=
  stmts.filter fun
    | .call _ x _ l _ _ _ => ruleName (implicitRuleName dir stmts) x l ≠ name
    | _ => true

/-- edit.go:374-388 `DeleteRuleByKind` -/
def deleteRuleByKind (kind : Bytes) (stmts : List Expr) : List Expr :=
  stmts.filter fun
    | .call _ (.ident i) _ _ _ _ _ => i.name ≠ kind
    | _ => true

/-- edit.go:343-352 `DeleteRule`: the statement the rule points to -/
def deleteRule (i : Nat) (stmts : List Expr) : List Expr := stmts.eraseIdx i

/-- build/rule.go:112-118: is this statement deleted by `DelRules`? -/
def delRulesMatch (kind name implicit : Bytes) : Expr → Bool
  | .call _ x _ l _ _ _ => (kind = [] || kindOf x = kind) && (name = [] || ruleName implicit x l = name)
  | _ => false

/-- build/rule.go:111-121, one iteration: `s.1` is the array that is overwritten in place, `s.2` the number of statements kept so
far. The implicit name is computed from the array as it is at that moment. -/
def delRulesStep (dir : Option Bytes) (kind name : Bytes) (s : List Expr × Nat) (i : Nat) : List Expr × Nat :=
  match s.1[i]? with
  | none => s
  | some stmt =>
    if delRulesMatch kind name (implicitRuleName dir s.1) stmt then s else (s.1.set s.2 stmt, s.2 + 1)

/-- build/rule.go:109-125 `DelRules`: the remaining statements and the number of deleted ones -/
def delRules (dir : Option Bytes) (kind name : Bytes) (stmts : List Expr) : List Expr × Nat :=
  let s := (List.range stmts.length).foldl (delRulesStep dir kind name) (stmts, 0)
  (s.1.take s.2, stmts.length - s.2)

/-- edit.go:238-245 `InsertAfter`, with `k = i + 1`; `none` is the panic on an index out of range -/
def insertAt (k : Nat) (stmts : List Expr) (e : Expr) : Option (List Expr) :=
  if k ≤ stmts.length then some (stmts.take k ++ e :: stmts.drop k) else none

/-- edit.go:248-261 `IndexOfLast`, plus one: 0 if there is none -/
def indexAfterLast (kind : Bytes) : List Expr → Nat
  | [] => 0
  | e :: l =>
    if indexAfterLast kind l ≠ 0 then indexAfterLast kind l + 1 else if isFunctionCall e kind then 1 else 0

/-- build/syntax.go `CommentBlock`; edit.go:276 -/
def isCommentBlock : Expr → Bool
  | .commentBlock .. => true
  | _ => false

/-- edit.go:274-280: number of statements before the trailing comments -/
def beforeComments : List Expr → Nat
  | [] => 0
  | e :: l => if beforeComments l ≠ 0 then beforeComments l + 1 else if isCommentBlock e then 0 else 1

/-- edit.go:273-282 `InsertAtEnd` -/
def insertAtEnd (stmts : List Expr) (e : Expr) : Option (List Expr) := insertAt (beforeComments stmts) stmts e

/-- edit.go:264-270 `InsertAfterLastOfSameKind`; the function of the call must be an identifier (Go panics otherwise) -/
def insertAfterLastOfSameKind (stmts : List Expr) (e : Expr) : Option (List Expr) :=
  match e with
  | .call _ (.ident i) _ _ _ _ _ =>
    if indexAfterLast i.name stmts = 0 then insertAtEnd stmts e else insertAt (indexAfterLast i.name stmts) stmts e
  | _ => none

/-- edit.go:147-166: the number of statements before the place of a new package declaration -/
def packagePlace : List Expr → Nat
  | [] => 0
  | .commentBlock .. :: l => 1 + packagePlace l
  | .load .. :: l => 1 + packagePlace l
  | .string _ :: l => 1 + packagePlace l
  | e :: l => if isFunctionCall e b!"workspace" then 1 + packagePlace l else 0

/-- edit.go:131-138 `ExistingPackageDeclaration`: index of the statement -/
def existingPackage (stmts : List Expr) : Option Nat := stmts.findIdx? fun e => isFunctionCall e b!"package"

/-- edit.go:143-174 `PackageDeclaration`: the statements afterwards and the index of the declaration -/
def packageDeclaration (stmts : List Expr) : List Expr × Nat :=
  match existingPackage stmts with
  | some i => (stmts, i)
  | none =>
    let k := packagePlace stmts
    (stmts.take k ++ .call {} (.ident { name := b!"package" }) {} [] {} false false :: stmts.drop k, k)

/-- edit.go:182-191 `RemoveEmptyPackage` -/
def removeEmptyPackage (stmts : List Expr) : List Expr :=
  stmts.filter fun
    | .call _ (.ident i) _ [] _ _ _ => i.name ≠ b!"package"
    | _ => true

/-- fix.go:418-422: statements a package declaration may follow -/
def mayPrecedePackage : Expr → Bool
  | .commentBlock .. | .string _ | .assign .. | .load .. => true
  | _ => false

/-- fix.go:417-438: the loop of `movePackageDeclarationToTheTop`; `i` is the index of the package declaration relative to the
remaining statements (`none` once it has been passed). `none` as a result: the file was ok. -/
def movePkgLoop (pkg : Expr) : List Expr → Option Nat → Bool → Option (List Expr)
  | [], _, _ => some []
  | e :: l, i, inserted =>
    if mayPrecedePackage e then (movePkgLoop pkg l (i.map (· - 1)) inserted).map (e :: ·)
    else if i = some 0 then
      if inserted then movePkgLoop pkg l none inserted else none
    else if !inserted then (movePkgLoop pkg l (i.map (· - 1)) true).map (pkg :: e :: ·)
    else (movePkgLoop pkg l (i.map (· - 1)) true).map (e :: ·)

/-- fix.go:410-441 `movePackageDeclarationToTheTop` -/
def movePackageToTop (stmts : List Expr) : List Expr :=
  match existingPackage stmts with
  | none => stmts
  | some i => (movePkgLoop (stmts.getD i .nil) stmts (some i) false).getD stmts

/-- fix.go:316-342: one statement of `usePlusEqual` -/
def plusEqual : Expr → Expr
  | .call c (.dot c' (.ident o) dp np n) p [x] e a b =>
    if n = b!"extend" then .assign c (.ident o) {} b!"+=" false x
    else if n = b!"append" then .assign c (.ident o) {} b!"+=" false (.list {} {} [x] {} false)
    else .call c (.dot c' (.ident o) dp np n) p [x] e a b
  | e => e

end Verif.Edit
