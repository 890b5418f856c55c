import Verif.Model.Bzlenv
import Verif.Model.Skylark
/-
Model of /repo/warn/types.go (`DetectTypes`) and of the warnings of /repo/warn/warn_operation.go and /repo/warn/warn_bazel_operation.go
that use the types.

Go keeps the types in a map from nodes (pointers). Here the result is the tree of the nodes, each with the names in scope, whether `DetectTypes`
visits it, its type (`unknown` if it is not in the map), and its children in the order of `WalkOnce`.
-/
namespace Verif.Types
open Verif Verif.Syntax Verif.Walk Verif.Bzlenv

/-- warn/types.go:27-43 `Type` -/
inductive Ty where
  | unknown | bool | ctx | ctxActions | ctxActionsArgs | depset | dict | int | none | string | list | float
deriving DecidableEq, Repr

/-- a node of the file with the entry of the map `result` (warn/types.go:70); `seen` says whether the function visits it -/
inductive TNode where
  | node (e : Expr) (scope : List Block) (seen : Bool) (ty : Ty) (kids : List TNode)

/-- the node (warn/types.go:70) -/
def TNode.expr : TNode → Expr
  | .node e .. => e

/-- the names in scope (warn/types.go:73 `env`) -/
def TNode.scope : TNode → List Block
  | .node _ b .. => b

/-- whether the node is visited (warn/types.go:73) -/
def TNode.seen : TNode → Bool
  | .node _ _ s .. => s

/-- `result[node]` (warn/types.go:70) -/
def TNode.ty : TNode → Ty
  | .node _ _ _ t _ => t

/-- the children (warn/types.go:75) -/
def TNode.kids : TNode → List TNode
  | .node _ _ _ _ k => k

/-- `variables` (warn/types.go:69), the latest entry first -/
abbrev Vars := List (Nat × Ty)

/-- `variables[id]` (warn/types.go:148); `unknown` is never stored -/
def lookup (id : Nat) : Vars → Ty
  | [] => .unknown
  | (i, t) :: l => if i = id then t else lookup id l

/-- `[0-9]` (warn/types.go:62) -/
def isDigit (b : UInt8) : Bool := 48 ≤ b && b ≤ 57

/-- `[0-9A-Fa-f]` (warn/types.go:62) -/
def isHex (b : UInt8) : Bool := isDigit b || (65 ≤ b && b ≤ 70) || (97 ≤ b && b ≤ 102)

/-- `[0-7]` (warn/types.go:62) -/
def isOctal (b : UInt8) : Bool := 48 ≤ b && b ≤ 55

/-- warn/types.go:62 `intRegexp` -/
def isInt (tok : Bytes) : Bool :=
  (tok ≠ [] && tok.all isDigit) ||
  (match tok with
   | a :: b :: r => a = c!"0" && (((b = c!"X" || b = c!"x") && r ≠ [] && r.all isHex) || ((b = c!"O" || b = c!"o") && r ≠ [] && r.all isOctal))
   | _ => false)

/-- the type of the child number `i` (`result[...]`) (warn/types.go:118, 152, 164) -/
def kidTy (i : Nat) (kids : List TNode) : Ty :=
  match kids[i]? with
  | some k => k.ty
  | none => .unknown

/-- warn/types.go:102-118: the type of a call of a name -/
def callTy (name : Bytes) : Ty :=
  if name = b!"bool" then .bool
  else if name = b!"int" then .int
  else if name = b!"float" then .float
  else if name = b!"str" then .string
  else if name = b!"depset" then .depset
  else if name = b!"dict" then .dict
  else if name = b!"list" then .list
  else .unknown

/-- warn/types.go:126-149: the type of an identifier -/
def identTy (vars : Vars) (scope : List Block) (name : Bytes) : Ty :=
  if name = b!"True" ∨ name = b!"False" then .bool
  else if name = b!"None" then .none
  else
    match get name scope with
    | none => .unknown
    | some b => if name = b!"ctx" ∧ b.kind = .parameter then .ctx else lookup b.id vars

/-- warn/types.go:154-176: the type of a binary expression -/
def binaryTy (op : Bytes) (x y : Ty) : Ty :=
  if op ∈ [b!">", b!">=", b!"<", b!"<=", b!"==", b!"!=", b!"in", b!"not in"] then .bool
  else if op ∈ [b!"+", b!"-", b!"*", b!"/", b!"//", b!"%", b!"|"] then
    if x ≠ .unknown then x
    else if op ≠ b!"%" ∨ y = .string then y
    else .unknown
  else .unknown

/-- warn/types.go:84-176: the type of a node, given the types of its children -/
def typeOf (vars : Vars) (scope : List Block) (e : Expr) (kids : List TNode) : Ty :=
  match e with
  | .string _ => .string
  | .dict .. => .dict
  | .list .. => .list
  | .literal _ _ tok => if isInt tok then .int else .float
  | .compr _ curly .. => if curly then .dict else .list
  | .call _ (.ident i) .. => callTy i.name
  | .call _ (.dot _ _ _ _ name) .. =>
    match kids with
    | k :: _ => if kidTy 0 k.kids = .ctxActions ∧ name = b!"args" then .ctxActionsArgs else .unknown
    | [] => .unknown
  | .paren .. => kidTy 0 kids
  | .ident i => identTy vars scope i.name
  | .dot _ _ _ _ name => if kidTy 0 kids = .ctx ∧ name = b!"actions" then .ctxActions else .unknown
  | .binary _ _ _ op _ _ => binaryTy op (kidTy 0 kids) (kidTy 1 kids)
  | _ => .unknown

/-- warn/types.go:177-194: an assignment gives the variable a type -/
def update (vars : Vars) (scope : List Block) (e : Expr) (kids : List TNode) : Vars :=
  match e with
  | .assign _ (.ident i) _ op _ _ =>
    if kidTy 1 kids = .unknown then vars
    else if op = b!"%=" ∧ kidTy 1 kids ≠ .string then vars
    else match get i.name scope with
      | none => vars
      | some b => (b.id, kidTy 1 kids) :: vars
  | _ => vars

/-- a part of the file that is not visited (the names of arguments, warn/types.go:211); `n` is the recursion budget -/
def unseen (scope : List Block) : Nat → Expr → TNode
  | 0, x => .node x scope false .unknown []
  | n + 1, x => .node x scope false .unknown ((slots x).map (unseen scope n))

/-- warn/types.go:206-216: the arguments of a call. The state is `variables` and the children that have been visited. -/
def callArgs (n : Nat) (fct : Vars × List TNode → Env → Expr → (Vars × List TNode) × Env) (s : Vars × List TNode) (env : Env) :
    List Expr → (Vars × List TNode) × Env
  | [] => (s, env)
  | .assign c lhs p op lb rhs :: l =>
    let r := fct (s.1, []) env rhs
    callArgs n fct (r.1.1, s.2 ++ [.node (.assign c lhs p op lb rhs) env.blocks false .unknown (unseen env.blocks n lhs :: r.1.2)]) r.2 l
  | x :: l => callArgs n fct (fct s env x).1 (fct s env x).2 l

/-- warn/types.go:204-220 `walkOnce` -/
def walkOnce (n : Nat) (fct : Vars × List TNode → Env → Expr → (Vars × List TNode) × Env) (x : Expr) (s : Vars × List TNode) (env : Env) :
    (Vars × List TNode) × Env :=
  match x with
  | .call _ f _ l .. => callArgs n fct (fct s env f).1 (fct s env f).2 l
  | x => walkOnceEnv fct x s env

/-- warn/types.go:72-197 `walk`: the node is added to the children of its parent. `n` is the recursion budget. -/
def infer : Nat → Vars × List TNode → Env → Expr → (Vars × List TNode) × Env
  | 0, s, env, x => ((s.1, s.2 ++ [.node x env.blocks false .unknown []]), env)
  | n + 1, s, env, x =>
    if x.isNil then ((s.1, s.2 ++ [.node x env.blocks false .unknown []]), env)
    else
      let r := walkOnce n (infer n) x (s.1, []) env
      ((update r.1.1 r.2.blocks x r.1.2, s.2 ++ [.node x r.2.blocks true (typeOf r.1.1 r.2.blocks x r.1.2) r.1.2]), r.2)

/-- warn/types.go:68-202 `DetectTypes` -/
def detect (f : Expr) : List TNode := (infer (size f) ([], []) {} f).1.2

mutual
/-- the nodes in the order of `Walk` (build/walk.go:84-108) -/
def TNode.nodes : TNode → List TNode
  | .node e b s t k => .node e b s t k :: nodesL k
/-- the nodes of a list (build/walk.go:84-108) -/
def nodesL : List TNode → List TNode
  | [] => []
  | k :: l => k.nodes ++ nodesL l
end

/-- all nodes of a file with their types (warn/warn_operation.go:35) -/
def nodes (f : Expr) : List TNode := nodesL (detect f)

/-! ### warnings about operations -/

/-- warn/warn_operation.go:25-53 `dictionaryConcatenationWarning` -/
def dictConcat (k : TNode) : Bool :=
  match k.expr with
  | .binary _ _ _ op _ _ => op = b!"+" && (kidTy 0 k.kids = .dict || kidTy 1 k.kids = .dict)
  | .assign _ _ _ op _ _ => op = b!"+=" && (kidTy 0 k.kids = .dict || kidTy 1 k.kids = .dict)
  | _ => false

/-- warn/warn_operation.go:62-95 `dictMethodNamedArgWarning`: whether an argument is `default = ...` -/
def isDefault : Expr → Bool
  | .assign _ (.ident i) .. => i.name = b!"default"
  | _ => false

/-- warn/warn_operation.go:62-95 `dictMethodNamedArgWarning`: the arguments that are reported -/
def namedDefault (k : TNode) : List Expr :=
  match k.expr with
  | .call _ (.dot _ _ _ _ name) _ l .. =>
    match k.kids with
    | d :: _ =>
      if kidTy 0 d.kids = .dict ∧ name ∈ [b!"pop", b!"get", b!"setdefault"] then l.filter isDefault else []
    | [] => []
  | _ => []

/-- the children of a type, after the first `n` -/
def kidsOf (t : Ty) (n : Nat) (kids : List TNode) : List TNode := (kids.drop n).filter fun k => k.ty = t

/-- warn/warn_operation.go:97-139 `stringIterationWarning`: the iterated strings at a node -/
def stringIteration (k : TNode) : List TNode :=
  match k.expr with
  | .forS .. => ((k.kids.drop 1).take 1).filter fun x => x.ty = .string
  | .forClause .. => ((k.kids.drop 1).take 1).filter fun x => x.ty = .string
  | .call _ (.ident i) _ l .. =>
    if i.name ∈ [b!"all", b!"any", b!"reversed", b!"max", b!"min"] then if l.length = 1 then kidsOf .string 1 k.kids else []
    else if i.name = b!"zip" then kidsOf .string 1 k.kids
    else []
  | _ => []

/-- warn/warn_operation.go:147-168 `integerDivisionWarning`: whether there is a finding at the node -/
def isIntDiv (k : TNode) : Bool :=
  match k.expr with
  | .binary _ _ _ op _ _ => op = b!"/" && kidTy 0 k.kids = .int && kidTy 1 k.kids = .int
  | .assign _ _ _ op _ _ => op = b!"/=" && kidTy 0 k.kids = .int && kidTy 1 k.kids = .int
  | _ => false

/-- warn/warn_operation.go:154-155 and 168-169: the operator of the copy -/
def floorOp : Expr → Expr
  | .binary c x p _ lb y => .binary c x p b!"//" lb y
  | .assign c x p _ lb y => .assign c x p b!"//=" lb y
  | e => e

mutual
/-- The tree after all replacements of warn/warn_operation.go:141-175 `integerDivisionWarning`. `eff` says whether the pointer to the node points into
the tree: if the parent has been replaced, the tree has a copy of it, and assignments to the fields of the parent are lost (the lists of
the parent are shared, see `Skylark.places`). Replacements in a load statement do not occur. -/
def fixDiv (eff : Bool) : TNode → Expr
  | .node e b s t kids =>
    let rep := eff && isIntDiv (.node e b s t kids)
    match e with
    | .nil => .nil
    | .load .. => e
    | e =>
      let w := withSlots e (fixDivL rep (Skylark.places e) kids)
      if rep then floorOp w else w
/-- the children (warn/warn_operation.go:141-175) -/
def fixDivL (rep : Bool) : List Skylark.Place → List TNode → List Expr
  | _, [] => []
  | [], k :: l => fixDiv true k :: fixDivL rep [] l
  | p :: ps, k :: l => fixDiv (match p with
      | .field => !rep
      | .elem => true
      | .loc => false) k :: fixDivL rep ps l
end

/-- warn/warn_operation.go:141-175: the file after the fix -/
def fixDivisions (f : Expr) : List Expr := (detect f).map (fixDiv false)

/-- warn/warn_operation.go:177-205 `listAppendWarning`: the replacement. The list of the new call is that of the right-hand side; its comments are
those of the assignment. `endPos` is where the assignment ends. -/
def appendFix (endPos : Pos) : Expr → Option Expr
  | .assign c lhs _ op _ (.list _ _ [x] _ _) =>
    if op = b!"+=" then some (.call c (.dot {} lhs {} {} b!"append") {} [x] { pos := endPos } false false) else none
  | _ => none

/-! ### warnings about depsets -/

/-- warn/warn_bazel_operation.go:26-73 `depsetUnionWarning` -/
def depsetUnion (k : TNode) : Bool :=
  match k.expr with
  | .binary _ _ _ op _ _ => (kidTy 0 k.kids = .depset || kidTy 1 k.kids = .depset) && (op = b!"+" || op = b!"|")
  | .assign _ _ _ op _ _ => (kidTy 0 k.kids = .depset || kidTy 1 k.kids = .depset) && (op = b!"+=" || op = b!"|=")
  | .call _ (.dot _ _ _ _ name) _ l .. =>
    l ≠ [] && name = b!"union" &&
      (match k.kids with
       | d :: _ => kidTy 0 d.kids = .depset || kidTy 1 k.kids = .depset
       | [] => false)
  | _ => false

/-- warn/warn_bazel_operation.go:75-142 `depsetIterationWarning`: the iterated depsets at a node -/
def depsetIteration (k : TNode) : List TNode :=
  match k.expr with
  | .forS .. => ((k.kids.drop 1).take 1).filter fun x => x.ty = .depset
  | .forClause .. => ((k.kids.drop 1).take 1).filter fun x => x.ty = .depset
  | .binary _ _ _ op _ _ => if op = b!"in" ∨ op = b!"not in" then ((k.kids.drop 1).take 1).filter fun x => x.ty = .depset else []
  | .call _ (.ident i) _ l .. =>
    if i.name ∈ [b!"all", b!"any", b!"depset", b!"len", b!"sorted", b!"max", b!"min", b!"list", b!"tuple"] then
      if l.length = 1 then kidsOf .depset 1 k.kids else []
    else if i.name = b!"zip" then kidsOf .depset 1 k.kids
    else []
  | _ => []

end Verif.Types
