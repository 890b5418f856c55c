import Verif.Model.ApiWarn
import Verif.Model.NotLoaded
import Verif.Model.Types
/-
Model of further checks in /repo/warn/warn_bazel_api.go: the old functions of `ctx` for actions, `output_group`, `args.add`, and checks without a fix.

As in `Model/ApiWarn`, a check is a function on one node, and messages and positions are left out. For the functions of `ctx` the effect of all fixes on the
file is modelled, because the replacement of a call makes copies and so replacements inside it can get lost.
-/
namespace Verif.ActionsWarn
open Verif Verif.Syntax Verif.Walk Verif.ApiWarn Verif.Bzlenv Verif.Types

/-- warn_bazel_api.go:575-580 and 596-622: the new name of a function of `ctx`, given the arguments of the call -/
def newName (name : Bytes) (l : List Expr) : Option Bytes :=
  if name = b!"new_file" then some b!"actions.declare_file"
  else if name = b!"experimental_new_directory" then some b!"actions.declare_directory"
  else if name = b!"file_action" then some b!"actions.write"
  else if name = b!"action" then some (if (getParam b!"command" l).isSome then b!"actions.run_shell" else b!"actions.run")
  else if name = b!"empty_action" then some b!"actions.do_nothing"
  else if name = b!"template_action" then some b!"actions.expand_template"
  else none

/-- An argument of the new call: an argument of the old call as it is, or a copy of a keyword argument (warn_bazel_api.go:600, 608-612, 624-628). The
children of a copy are no longer reached by replacements that refer to the places in the original. -/
inductive NewArg where
  | shared (e : Expr)
  | copied (c : Comments) (name : IdentN) (p : Pos) (op : Bytes) (lb : Bool) (rhs : Expr)

/-- the node of an argument whose expression is replaced by what `f` gives (warn_bazel_api.go:600, 608-612, 624-628) -/
def NewArg.node (f : Expr → Expr) : NewArg → Expr
  | .shared e => f e
  | .copied c i p op lb rhs => .assign c (.ident i) p op lb (f rhs)

/-- warn_bazel_api.go:600: `makeKeyword(e, "sibling")` (343-361) as an argument -/
def sibling : Expr → NewArg
  | .assign c lhs p op lb rhs =>
    match lhs with
    | .ident i => if i.name = b!"sibling" then .shared (.assign c lhs p op lb rhs) else .copied c { name := b!"sibling" } p op lb rhs
    | _ => .copied c { name := b!"sibling" } p op lb rhs
  | e => .copied {} { name := b!"sibling" } {} b!"=" false e

/-- warn_bazel_api.go:606-613 and 623-629: `executable` is renamed -/
def isExecutable (l : List Expr) : List NewArg :=
  match getParam b!"executable" l with
  | some (i, q) => (l.map NewArg.shared).set i (.copied q.c { q.id with name := b!"is_executable" } q.p q.op q.lb q.rhs)
  | none => l.map NewArg.shared

/-- warn_bazel_api.go:588-630: the new arguments -/
def newArgs (name : Bytes) (l : List Expr) : List NewArg :=
  if name = b!"new_file" then
    match l with
    | [a, b] => [.shared (makePositional b), sibling a]
    | l => l.map NewArg.shared
  else if name = b!"file_action" ∨ name = b!"template_action" then isExecutable l
  else l.map NewArg.shared

/-- warn_bazel_api.go:562-580: a call of an old function of `ctx`: its name and arguments -/
def ctxCall : Expr → Option (Bytes × List Expr)
  | .call _ (.dot _ (.ident b) _ _ name) _ l _ _ _ => if b.name = b!"ctx" ∧ (newName name l).isSome then some (name, l) else none
  | _ => none

/-- warn_bazel_api.go:590-595: there is no fix for three arguments -/
def fixable (name : Bytes) (l : List Expr) : Bool := !(name = b!"new_file" && decide (2 < l.length))

/-- warn_bazel_api.go:583-586, 632-634: the call after the fix, with the given arguments -/
def renameCall (name : Bytes) (l' : List Expr) : Expr → Expr
  | .call c (.dot c' x d q _) p _ t a b => .call c (.dot c' x d q name) p l' t a b
  | e => e

/-- The file after all fixes of `ctxActionsWarning` (warn_bazel_api.go:554-637, warn/warn.go:285-289). `live` says whether a replacement of the node is
written to a place that is still in the file: not so for the arguments of a call that has been replaced. `n` is the recursion budget. -/
def fixActions : Nat → Bool → Expr → Expr
  | 0, _, e => e
  | n + 1, live, e =>
    match ctxCall e with
    | some (name, l) =>
      if live && fixable name l then
        renameCall ((newName name l).getD []) ((newArgs name l).map (NewArg.node (fixActions n false))) e
      else withSlots e ((slots e).map (fixActions n true))
    | none => withSlots e ((slots e).map (fixActions n true))

/-- warn_bazel_api.go:672-708 `outputGroupWarning` at one node: the replacement -/
def outputGroup : Expr → Option Expr
  | .dot _ (.dot c1 (.dot c2 (.ident i) d2 q2 n2) d1 q1 n1) _ _ n =>
    if n = b!"output_group" ∧ n2 = b!"attr" ∧ i.name = b!"ctx" then
      some (.index {} (.dot c1 (.dot c2 (.ident i) d2 q2 n2) d1 q1 n1) {} (.ident { name := b!"OutputGroupInfo" }) {})
    else none
  | _ => none

/-- The file after all fixes of `outputGroupWarning` (warn_bazel_api.go:672-708, warn/warn.go:285-289); nothing inside a node that is replaced is reported -/
def fixGroups : Nat → Expr → Expr
  | 0, e => e
  | n + 1, e =>
    match outputGroup e with
    | some e' => e'
    | none => withSlots e ((slots e).map (fixGroups n))

/-- the first keyword argument of a name gets another name and value (`LinterReplacement{&param.LHS, …}`, warn_bazel_api.go:874-893) -/
def setParam (name name' : Bytes) (value : Expr → Expr) (l : List Expr) : List Expr :=
  match getParam name l with
  | some (i, q) => l.set i (.assign q.c (.ident { q.id with name := name' }) q.p q.op q.lb (value q.rhs))
  | none => l

/-- warn_bazel_api.go:834-902 `contextArgsAPIWarning` at one node with the types of its children: the call after the fix -/
def argsAdd (k : TNode) : Option Expr :=
  match k.expr, k.kids with
  | .call c (.dot c' x d q name) p l t a b, f :: _ =>
    if name = b!"add" ∧ kidTy 0 f.kids = .ctxActionsArgs then
      let joined := (getParam b!"join_with" l).isSome
      if (getParam b!"before_each" l).isNone ∧ !joined ∧ (getParam b!"map_fn" l).isNone then none
      else
        let l1 := if joined then
            setParam b!"before_each" b!"format_each" (fun v => .binary {} v {} b!"+" false (.string { value := b!"%s" })) l
          else l
        some (.call c (.dot c' x d q (if joined then b!"add_joined" else b!"add_all")) p (setParam b!"map_fn" b!"map_each" (fun v => v) l1) t a b)
    else none
  | _, _ => none

/-- warn_bazel_api.go:90-99 `isFunctionCall`: the arguments -/
def callOf (name : Bytes) : Expr → Option (List Expr)
  | .call _ (.ident i) _ l _ _ _ => if i.name = name then some l else none
  | _ => none

/-- an assignment (`_, ok := call.List[0].(*build.AssignExpr)`, warn_bazel_api.go:446, 1181) -/
def isAssign : Expr → Bool
  | .assign .. => true
  | _ => false

/-- warn_bazel_api.go:424-456 `depsetItemsWarning` at one node with the types of its children -/
def depsetItems (k : TNode) : Bool :=
  match callOf b!"depset" k.expr, k.kids with
  | some (a :: l), _ :: ta :: _ => (getParam b!"items" (a :: l)).isSome || (!isAssign a && ta.ty = .depset)
  | _, _ => false

/-- the arguments of a call `attr.name(…)` (warn_bazel_api.go:912-923, 942-953) -/
def attrCall (name : Bytes) : Expr → Option (List Expr)
  | .call _ (.dot _ (.ident b) _ _ n) _ l _ _ _ => if n = name ∧ b.name = b!"attr" then some l else none
  | _ => none

/-- warn_bazel_api.go:904-932 `attrOutputDefaultWarning` at one node -/
def outputDefault (e : Expr) : Bool :=
  match attrCall b!"output" e with
  | some l => (getParam b!"default" l).isSome
  | none => false

/-- warn_bazel_api.go:934-958 `attrLicenseWarning` at one node -/
def license (e : Expr) : Bool := (attrCall b!"license" e).isSome

/-- the nodes at which a check reports, in the order of `Walk` (warn_bazel_api.go:910, 940; build/walk.go:84-108) -/
def found (check : Expr → Bool) (f : Expr) : List Expr :=
  walk (fun (log : List Expr) x _ => if check x then log ++ [x] else log) [] f

/-- warn_bazel_api.go:975-983: the implementation that a call of `rule` gives (`nil` if it gives none) -/
def implOf (l : List Expr) : Expr :=
  match getParam b!"implementation" l with
  | some (_, q) => q.rhs
  | none => match l with
    | a :: _ => a
    | [] => .nil

/-- the name of an identifier (warn_bazel_api.go:984) -/
def nameOf : Expr → Option Bytes
  | .ident i => some i.name
  | _ => none

/-- warn_bazel_api.go:969-988: the implementation function that a node names as that of a rule -/
def implName (e : Expr) : Option Bytes := (callOf b!"rule" e).bind fun l => nameOf (implOf l)

/-- warn_bazel_api.go:969-988: the set `implNames` -/
def implNames (f : Expr) : List Bytes :=
  walk (fun (log : List Bytes) x _ => match implName x with
    | some n => log ++ [n]
    | none => log) [] f

/-- warn_bazel_api.go:999-1007: a return statement that returns a struct -/
def returnsStruct : Expr → Bool
  | .returnS _ _ r => (callOf b!"struct" r).isSome
  | _ => false

/-- warn_bazel_api.go:960-1010 `ruleImplReturnWarning`: the return statements reported, in order -/
def implReturns (c : Comments) (stmts : List Expr) : List Expr :=
  stmts.flatMap fun s => match s with
    | .defS _ _ name .. => if (implNames (.file c stmts)).contains name then found returnsStruct s else []
    | _ => []

/-- warn_bazel_api.go:1177-1184: the first argument is positional -/
def firstPositional : List Expr → Bool
  | a :: _ => !isAssign a
  | [] => false

/-- warn_bazel_api.go:1163-1201 `providerParamsWarning` at one node: whether the fields and the documentation are missing; none if there is no finding -/
def providerCheck (e : Expr) : Option (Bool × Bool) :=
  match callOf b!"provider" e with
  | none => none
  | some l =>
    let fields := (getParam b!"fields" l).isNone
    let doc := (getParam b!"doc" l).isNone && !firstPositional l
    if fields || doc then some (fields, doc) else none

/-- the value of a string key of a dictionary (warn_bazel_api.go:1217-1221) -/
def stringKey : Expr → Option Bytes
  | .keyValue _ (.string s) _ _ => some s.value
  | _ => none

/-- warn_bazel_api.go:1203-1232 `attrNameWarning` at one node: the names reported, in order -/
def attrNames (names : List Bytes) : Expr → List Bytes
  | .dict _ _ l _ _ => l.flatMap fun e => match stringKey e with
    | some v => names.filter fun n => v = n
    | none => []
  | _ => []

/-- warn_bazel_api.go:639-662 `fileTypeWarning`: the calls reported, in order -/
def fileTypes (f : Expr) : List Expr :=
  ((walkAll f).filter fun v => (callOf b!"FileType" v.1).isSome && (get b!"FileType" v.2.blocks).isNone).map (·.1)

/-- warn_bazel_api.go:102-136 `globalVariableUsageCheck`: the identifiers reported, in order -/
def globalUses (global : Bytes) (f : Expr) : List Expr :=
  ((walkAll f).filter fun v => match v.1 with
    | .ident i => decide (i.name = global) && (get i.name v.2.blocks).isNone
    | _ => false).map (·.1)

end Verif.ActionsWarn
