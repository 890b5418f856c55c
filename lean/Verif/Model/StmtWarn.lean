import Verif.Model.Flow
import Verif.Model.Types
import Verif.Model.ApiWarn
import Verif.Model.DocWarn
import Verif.Model.Labels
/-
Model of the checks of statements in /repo/warn: statements without effect and redefined variables (warn_control_flow.go), depsets that are extended in loops
(warn_bazel_operation.go), and deprecated functions (warn_deprecated.go).

A finding is the path of the statement (as in Model/Flow), or the node it is about. Messages are left out.
-/
namespace Verif.StmtWarn
open Verif Verif.Syntax Verif.Flow Verif.Types

/-- the three messages of `noEffectStatementsCheck` (warn/warn_control_flow.go:193, 198, 200) -/
inductive Idle where
  | plain | string | compr
deriving DecidableEq, Repr

/-- warn/warn_control_flow.go:186-203: what is said of a statement that is not a docstring -/
def idle1 (top : Bool) : Expr → Option Idle
  | .defS .. | .forS .. | .ifS .. | .load .. | .returnS .. | .call .. | .commentBlock .. | .branch .. | .assign .. | .nil => none
  | .compr _ curly .. => if !top || curly then some .compr else none
  | .string _ => some .string
  | _ => some .plain

/-- warn/warn_control_flow.go:168-206 `noEffectStatementsCheck`, from statement number `i` on with the current value of `seenNonComment` -/
def noEffectBlock (top func : Bool) (i : Nat) (seen : Bool) : List Expr → List (Nat × Idle)
  | [] => []
  | .nil :: l => noEffectBlock top func (i + 1) seen l
  | .commentBlock .. :: l => noEffectBlock top func (i + 1) seen l
  | .string _ :: l =>
    if !seen && (top || func) then noEffectBlock top func (i + 1) true l
    else (i, .string) :: noEffectBlock top func (i + 1) true l
  | x :: l =>
    match idle1 top x with
    | some k => (i, k) :: noEffectBlock top func (i + 1) true l
    | none => noEffectBlock top func (i + 1) true l

/-- warn/warn_control_flow.go:211-223: the blocks of a statement, with the path of the list -/
def noEffectIn (d : Path) : Expr → List (Path × Idle)
  | .forS _ _ _ _ b => (noEffectBlock false false 0 false b).map fun r => (d ++ [0, r.1], r.2)
  | .defS _ _ _ _ b _ _ _ _ => (noEffectBlock false true 0 false b).map fun r => (d ++ [0, r.1], r.2)
  | .ifS _ _ _ t _ f => (noEffectBlock false false 0 false t).map (fun r => (d ++ [0, r.1], r.2)) ++
      (noEffectBlock false false 0 false f).map fun r => (d ++ [1, r.1], r.2)
  | _ => []

/-- warn/warn_control_flow.go:208-226 `noEffectWarning` -/
def noEffect (c : Comments) (stmts : List Expr) : List (Path × Idle) :=
  ((noEffectBlock true false 0 false stmts).map fun r => ([0, r.1], r.2)) ++
    (walkSt (fun _ _ => false) [] (.file c stmts)).flatMap fun q => noEffectIn q.1 q.2.2

/-- the variable and the operator of an assignment to a name (warn/warn_control_flow.go:562-570) -/
def assigned : Expr → Option (Bytes × Bytes)
  | .assign _ (.ident i) _ op _ _ => some (i.name, op)
  | _ => none

/-- warn/warn_control_flow.go:561-585: the loop over the statements; `defined` is `definedSymbols` -/
def redefinedLoop (i : Nat) (defined : List Bytes) : List TNode → List Nat
  | [] => []
  | k :: l =>
    match assigned k.expr with
    | none => redefinedLoop (i + 1) defined l
    | some (name, op) =>
      if name ∉ defined then redefinedLoop (i + 1) (name :: defined) l
      else if op = b!"+=" ∧ (kidTy 0 k.kids = .list ∨ kidTy 1 k.kids = .list) then redefinedLoop (i + 1) defined l
      else i :: redefinedLoop (i + 1) defined l

/-- warn/warn_control_flow.go:556-587 `redefinedVariableWarning`: the numbers of the reported statements -/
def redefined (f : Expr) : List Nat :=
  match detect f with
  | [root] => redefinedLoop 0 [] root.kids
  | _ => []

/-- a `for` statement (warn/warn_bazel_operation.go:150-155) -/
def isFor : Expr → Bool
  | .forS .. => true
  | _ => false

/-- `ident.Name == lhs.Name` (warn/warn_bazel_operation.go:189) -/
def isName (name : Bytes) : Expr → Bool
  | .ident i => i.name = name
  | _ => false

/-- warn/warn_bazel_operation.go:160-193: the statement makes a depset of the name it is assigned to -/
def nests : Expr → Bool
  | .assign _ (.ident i) _ _ _ (.call _ (.ident g) _ args _ _ _) =>
    if g.name = b!"depset" then
      match ApiWarn.getParam b!"transitive" args with
      | some (_, q) =>
        match q.rhs with
        | .list _ _ l _ _ => l.any (isName i.name)
        | _ => false
      | none => false
    else false
  | _ => false

/-- warn/warn_bazel_operation.go:145-195 `overlyNestedDepsetWarning` -/
def nestedDepsets (f : Expr) : List Path :=
  (walkSt (fun _ _ => false) [] f).flatMap fun q => if q.2.1.any isFor && nests q.2.2 then [q.1] else []

/-- the last entry of the map for the name: warn/warn_deprecated.go:71-74 -/
def lastNamed (name : Bytes) : List IdentN → Option IdentN
  | [] => none
  | i :: l => match lastNamed name l with
    | some j => some j
    | none => if i.name = name then some i else none

/-- warn/warn_deprecated.go:28-51 `checkDeprecatedFunction`: the loaded symbol and the name of the function -/
def deprecated1 (symbols : List IdentN) : Expr → Option (IdentN × Bytes)
  | .defS _ _ name _ body _ _ _ _ =>
    match lastNamed name symbols, DocWarn.docOf body with
    | some i, some d => if (DocWarn.parseDoc d).deprecated then some (i, name) else none
    | _, _ => none
  | _ => none

/-- warn/warn_deprecated.go:59-83: one statement of the file. `reader` is `fileReader.GetFile`: the canonical path and the statements of a file. -/
def deprecatedIn (reader : Bytes → Bytes → Option (Bytes × List Expr)) (pkg : Bytes) : Expr → List (IdentN × Bytes × Bytes)
  | .load _ _ m from_ _ _ _ =>
    let label := Labels.parseRelative m.value pkg
    if label.repository ≠ [] ∨ label.target = [] then []
    else match reader label.package label.target with
      | none => []
      | some (path, stmts) => (stmts.filterMap (deprecated1 from_)).map fun r => (r.1, r.2, path)
  | _ => []

/-- warn/warn_deprecated.go:53-86 `deprecatedFunctionWarning` with a file reader: the loaded symbol, the name and the file of the function -/
def deprecatedWarning (reader : Bytes → Bytes → Option (Bytes × List Expr)) (pkg : Bytes) (stmts : List Expr) : List (IdentN × Bytes × Bytes) :=
  stmts.flatMap (deprecatedIn reader pkg)

end Verif.StmtWarn
