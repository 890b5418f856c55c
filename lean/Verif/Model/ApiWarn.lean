import Verif.Model.Walk
/-
Model of checks for outdated API in /repo/warn/warn_bazel_api.go: parameters of `attr.xxx(…)` definitions (`cfg`, `non_empty`, `single_file`), and
keyword parameters of builtins that are positional-only.

A check is a function on one node: what it reports and what the node becomes when the fix is applied. Messages and positions are left out.
-/
namespace Verif.ApiWarn
open Verif Verif.Syntax Verif.Walk

/-- the fields of an assignment node `lhs = rhs` whose left side is an identifier (warn_bazel_api.go:72-87) -/
structure Param where
  c : Comments
  id : IdentN
  p : Pos
  op : Bytes
  lb : Bool
  rhs : Expr

/-- warn_bazel_api.go:72-87 `getParam`: index and parameter; the operator is not looked at -/
def getParam (name : Bytes) : List Expr → Option (Nat × Param)
  | [] => none
  | .assign c (.ident i) p op lb rhs :: l =>
    if i.name = name then some (0, ⟨c, i, p, op, lb, rhs⟩) else (getParam name l).map fun r => (r.1 + 1, r.2)
  | _ :: l => (getParam name l).map fun r => (r.1 + 1, r.2)

/-- warn_bazel_api.go:42-69 `negateExpression` -/
def negate : Expr → Expr
  | .paren c p x r fm => .paren c p (negate x) r fm
  | .unary c p op x => if op = b!"not" then x else .unary {} {} b!"not" (.unary c p op x)
  | .ident i => .ident { i with name := if i.name = b!"True" then b!"False" else b!"True" }
  | e => .unary {} {} b!"not" e

/-- the arguments of a call `attr.xxx(…)` (warn_bazel_api.go:372-384, 457-469, 495-507) -/
def attrArgs : Expr → Option (List Expr)
  | .call _ (.dot _ (.ident b) _ _ _) _ l _ _ _ => if b.name = b!"attr" then some l else none
  | _ => none

/-- a copy of the call with other arguments (`newCall := *call; newCall.List = …`, warn_bazel_api.go:394-397) -/
def withArgs (e : Expr) (l : List Expr) : Expr :=
  match e with
  | .call c x p _ t a b => .call c x p l t a b
  | e => e

/-- warn_bazel_api.go:363-422 `attrConfigurationWarning` at one node: the node after the check, and the replacement. In the case of "data" the new list is built by
`append(newCall.List[:i], newCall.List[i+1:]...)`, which moves the elements of the old list. -/
def cfgCheck (e : Expr) : Option (Expr × Expr) :=
  match attrArgs e with
  | none => none
  | some l =>
    match getParam b!"cfg" l with
    | none => none
    | some (i, q) =>
      match q.rhs with
      | .string s =>
        if s.value = b!"data" then
          some (withArgs e (l.take i ++ l.drop (i + 1) ++ l.drop (l.length - 1)), withArgs e (l.take i ++ l.drop (i + 1)))
        else if s.value = b!"host" then
          some (e, withArgs e (l.set i (.assign q.c (.ident q.id) q.p q.op q.lb (.string { s with value := b!"exec" }))))
        else none
      | _ => none

/-- warn_bazel_api.go:449-485 `attrNonEmptyWarning` at one node, with both replacements applied -/
def nonEmptyFix (e : Expr) : Option Expr :=
  match attrArgs e with
  | none => none
  | some l =>
    match getParam b!"non_empty" l with
    | none => none
    | some (i, q) => some (withArgs e (l.set i (.assign q.c (.ident { q.id with name := b!"allow_empty" }) q.p q.op q.lb (negate q.rhs))))

/-- the name `False` (warn_bazel_api.go:521) -/
def falseName : Expr → Bool
  | .ident i => i.name = b!"False"
  | _ => false

/-- warn_bazel_api.go:487-542 `attrSingleFileWarning` at one node, with the three replacements applied -/
def singleFileFix (e : Expr) : Option Expr :=
  match attrArgs e with
  | none => none
  | some l =>
    match getParam b!"single_file" l with
    | none => none
    | some (i, q) =>
      let renamed (v : Expr) : Expr := .assign q.c (.ident { q.id with name := b!"allow_single_file" }) q.p q.op q.lb v
      if falseName q.rhs then some (withArgs e (l.take i ++ l.drop (i + 1)))
      else
        match getParam b!"allow_files" l with
        | some (j, w) =>
          let l' := l.set i (renamed w.rhs)
          some (withArgs e (l'.take j ++ l'.drop (j + 1)))
        | none => some (withArgs e (l.set i (renamed q.rhs)))

/-- the nodes a check reports, in the order `WalkPointers` finds them (warn_bazel_api.go:455, 493; build/walk.go:41-48). These checks do not touch the tree. -/
def reported (check : Expr → Option Expr) (f : Expr) : List Expr :=
  walk (fun (log : List Expr) x _ => if (check x).isSome then log ++ [x] else log) [] f

/-! ### keyword parameters of builtins -/

/-- warn_bazel_api.go:1032-1046 `functionName` -/
def functionName : Expr → Option Bytes
  | .call _ (.ident i) _ _ _ _ _ => some i.name
  | .call _ (.dot _ (.ident i) _ _ n) _ _ _ _ _ => if i.name = b!"native" then some n else none
  | _ => none

/-- warn_bazel_api.go:1048-1053: the kinds of arguments, in the order of the constants -/
inductive Kind where
  | positional | keyword | args | kwargs
deriving DecidableEq, Repr

/-- the constants (warn_bazel_api.go:1048-1053) -/
def Kind.val : Kind → Nat
  | .positional => 0 | .keyword => 1 | .args => 2 | .kwargs => 3

/-- warn_bazel_api.go:1055-1078 `paramType` -/
def paramType : Expr → Kind × Bytes
  | .assign _ lhs _ op _ _ =>
    if op = b!"=" then
      match lhs with
      | .ident i => (.keyword, i.name)
      | _ => (.keyword, [])
    else (.positional, [])
  | .unary _ _ op _ => if op = b!"*" then (.args, []) else if op = b!"**" then (.kwargs, []) else (.positional, [])
  | _ => (.positional, [])

/-- warn_bazel_api.go:335-341 `makePositional` -/
def makePositional : Expr → Expr
  | .assign _ _ _ _ _ rhs => rhs
  | e => e

/-- warn_bazel_api.go:343-361 `makeKeyword` -/
def makeKeyword (name : Bytes) : Expr → Expr
  | .assign c lhs p op lb rhs =>
    match lhs with
    | .ident i => if i.name = name then .assign c lhs p op lb rhs else .assign c (.ident { name := name }) p op lb rhs
    | _ => .assign c (.ident { name := name }) p op lb rhs
  | e => .assign {} (.ident { name := name }) {} b!"=" false e

/-- One argument at index `i` (warn_bazel_api.go:1104-1128): its replacement if there is a finding, and its kind afterwards -/
def argCheck (positional keyword : List Bytes) (i : Nat) (e : Expr) : Option Expr × Kind :=
  let t := paramType e
  if t.1 = .keyword ∧ positional[i]? = some t.2 then (some (makePositional e), .positional)
  else if t.1 = .positional ∧ positional.length ≤ i ∧ i < positional.length + keyword.length then
    (some (makeKeyword ((keyword[i - positional.length]?).getD []) e), .keyword)
  else (none, t.1)

/-- the loop over the arguments (warn_bazel_api.go:1103-1129) -/
def argChecks (positional keyword : List Bytes) : Nat → List Expr → List (Option Expr × Kind)
  | _, [] => []
  | i, e :: l => argCheck positional keyword i e :: argChecks positional keyword (i + 1) l

/-- `sort.IntsAreSorted` (warn_bazel_api.go:1140) -/
def sortedKinds : List Kind → Bool
  | k :: k' :: l => decide (k.val ≤ k'.val) && sortedKinds (k' :: l)
  | _ => true

/-- warn_bazel_api.go:1080-1161 `keywordPositionalParametersWarning` at one node: the number of findings, and the node after the fix. `signatures` gives the
positional and the keyword parameters of a function. -/
def keywordCheck (signatures : Bytes → Option (List Bytes × List Bytes)) (e : Expr) : Nat × Expr :=
  match e with
  | .call c x p l t fc fm =>
    match (functionName e).bind signatures with
    | none => (0, e)
    | some (pos, kw) =>
      let r := argChecks pos kw 0 l
      let n := (r.filter fun q => q.1.isSome).length
      if n = 0 then (0, e)
      else if sortedKinds (r.map (·.2)) then
        (n, .call c x p ((l.zip r).map fun q => q.2.1.getD q.1) t (if (r.map (·.2)).contains .keyword then false else fc) fm)
      else (n, e)
  | e => (0, e)

end Verif.ApiWarn
