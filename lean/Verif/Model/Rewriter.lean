import Verif.Model.FixLabels
import Verif.Model.Layout
import Verif.Model.Loads
import Verif.Model.ReorderArgs
import Verif.Model.Docstring
import Verif.Model.Quote
/-
Model of the rewrite driver /repo/build/rewrite.go:91-142 and of the tree-level part of the individual rewrites.

`sort.Sort` is modelled by an insertion sort here (one of the results Go's algorithm may give; where the order has no ties
between different elements it is the only one). Properties of the individual sorts are proved for every sorting algorithm in
the corresponding `Props` files.
-/
namespace Verif.Rewrite
open Verif Verif.Syntax Verif.Walk

/-- rewrite.go:33-56, 62-72: the `Rewriter` and the global `DisableRewrites`, `AllowSort` and
`tables.StripLabelLeadingSlashes` (`stripKey`). `rewriteSet = none` is Go's nil slice. -/
structure Config where
  rewriteSet : Option (List Bytes)
  labels : LabelConfig
  isSortableListArg : Bytes → Bool
  sortableDenylist : Bytes → Bool
  sortableAllowlist : Bytes → Bool
  namePriority : Bytes → Option Int
  disableRewrites : List Bytes
  allowSort : List Bytes
  stripKey : Bool

/-- rewrite.go:36-43 `disabled` -/
def disabled (w : Config) (name : Bytes) : Bool := w.disableRewrites.any (· == name)

/-- rewrite.go:49-56 `allowedSort` -/
def allowedSort (w : Config) (name : Bytes) : Bool := w.allowSort.any (· == name)

/-- rewrite.go:102-109 `rewriteSetContains` -/
def rewriteSetContains (set : List Bytes) (name : Bytes) : Bool := set.any (· == name)

/-- Apply an in-place traversal to a file. (build/walk.go:33-39) -/
def onTree (g : Expr → Expr) (f : File) : File :=
  match g f.toExpr with
  | .file c l => { f with comments := c, stmts := l }
  | _ => f

/-- rewrite.go:361-395: the callback of `sortCallArgs` -/
def sortCall (w : Config) (v : Expr) (stk : List Expr) : Expr :=
  match v with
  | .call c x p l e a b =>
    if leaveAlone stk v then v
    else
      let rule := callKind x
      let rule := if rule = [] then b!"<complex rule kind>" else rule
      .call c x p (sortArgs w.namePriority rule l) e a b
  | v => v

/-- rewrite.go:359-396 `sortCallArgs` -/
def sortCallArgs (w : Config) (f : File) : File := onTree (walkMut (sortCall w)) f

/-- rewrite.go:478-506: one argument of a call in `sortStringLists` -/
def sortListArg (w : Config) (rule : Bytes) (a : Expr) : Expr :=
  match a with
  | .assign c (.ident i) p o lb r =>
    if leaveAlone1 a then a
    else
      let context := rule ++ b!"." ++ i.name
      if w.sortableDenylist context then a
      else if w.isSortableListArg i.name || w.sortableAllowlist context ||
          (!disabled w b!"unsafesort" && allowedSort w context) then
        if doNotSort a then .assign c (.ident i) p o lb (dedupStringList r)
        else .assign c (.ident i) p o lb (findAndModify (sortStringList w.stripKey) (size r) r)
      else a
  | a => a

/-- rewrite.go:466-530: the callback of `sortStringLists` for a file of type `type` -/
def sortListNode (w : Config) (type : FileType) (v : Expr) (stk : List Expr) : Expr :=
  match v with
  | .call c x p l e a b =>
    if type = .default || type = .bzl then v
    else if leaveAlone stk v then v
    else .call c x p (l.map (sortListArg w (callKind x))) e a b
  | .assign c x p o lb r =>
    if disabled w b!"unsafesort" then v
    else if keepSorted v then .assign c x p o lb (findAndModify (sortStringList w.stripKey) (size r) r)
    else v
  | .keyValue c k p r =>
    if disabled w b!"unsafesort" then v
    else if keepSorted v then .keyValue c k p (findAndModify (sortStringList w.stripKey) (size r) r)
    else v
  | .list _ _ l _ _ =>
    if disabled w b!"unsafesort" then v
    else if l.length > 0 && (keepSorted v || keepSorted (l.headD .nil)) then
      findAndModify (sortStringList w.stripKey) (size v) v
    else v
  | v => v

/-- rewrite.go:461-529 `sortStringLists` -/
def sortStringLists (w : Config) (f : File) : File := onTree (walkMut (sortListNode w f.type)) f

/-- rewrite.go:1182-1188 `sortAllLoadArgs` -/
def sortAllLoadArgs (f : File) : File := onTree (walkMut fun v _ => sortLoadArgs (sortBy loadArgLess) v) f

/-- rewrite.go:1191-1207: the callback of `sortUseRepoPositionals` -/
def sortUseRepo (strip : Bool) (v : Expr) : Expr :=
  match v with
  | .call c (.ident i) p l e a b =>
    if i.name ≠ b!"use_repo" || l.length < 3 then v
    else if doNotSort v || doNotSort (l.headD .nil) || doNotSort (l.tail.headD .nil) then
      .call c (.ident i) p (dedupStringExprs l) e a b
    else .call c (.ident i) p (sortStringExprs strip l) e a b
  | v => v

/-- rewrite.go:1190-1209 `sortUseRepoPositionals` -/
def sortUseRepoPositionals (w : Config) (f : File) : File := onTree (walkMut fun v _ => sortUseRepo w.stripKey v) f

/-- rewrite.go:1305-1316: the docstring of a function at nesting depth `depth`. (`docstring.Start.LineRune - 1` is never
negative for a parsed string.) -/
def formatDoc (depth : Nat) (s : StringN) : StringN :=
  let t := formatString s.token (s.start.lineRune - 1) (4 * depth)
  if t = s.token then s
  else { s with token := t, value := (Quote.unquote t).s }

/-- rewrite.go:1297-1317: the callback of `formatDocstrings` -/
def formatDef (v : Expr) (stk : List Expr) : Expr :=
  match v with
  | .defS c p n ps (.string s :: body) q a d t =>
    if s.triple then .defS c p n ps (.string (formatDoc stk.length s) :: body) q a d t else v
  | v => v

/-- rewrite.go:1296-1319 `formatDocstrings` -/
def formatDocstrings (f : File) : File := onTree (walkMut formatDef) f

/-- rewrite.go:1371-1387: the callback of `reorderArguments` -/
def reorderCall (v : Expr) : Expr :=
  match v with
  | .call c x p l e a b => .call c x p (reorderArgs l) e a b
  | v => v

/-- rewrite.go:1370-1388 `reorderArguments` -/
def reorderArguments (f : File) : File := onTree (walkMut fun v _ => reorderCall v) f

/-- rewrite.go:114-118: the scopes -/
inductive Scope where
  | build | both | moduleOnly
deriving DecidableEq

/-- rewrite.go:98 `f.Type&r.scope != 0` -/
def Scope.covers : Scope → FileType → Bool
  | .build, t => t == .build || t == .workspace || t == .module
  | .both, _ => true
  | .moduleOnly, t => t == .module

/-- one entry of the table of rewrites (build/rewrite.go:111-142) -/
structure Entry where
  name : Bytes
  fn : File → File
  scope : Scope

/-- `compressSameOriginLoads` on a file (rewrite.go:1037-1079) -/
def compressFile (f : File) : File := { f with stmts := compressLoads f.stmts }

/-- rewrite.go:122-142 `rewrites` -/
def rewrites (w : Config) : List Entry := [
  ⟨b!"removeParens", onTree removeParens, .build⟩,
  ⟨b!"callsort", sortCallArgs w, .build⟩,
  ⟨b!"label", fixLabels w.labels, .build⟩,
  ⟨b!"listsort", sortStringLists w, .both⟩,
  ⟨b!"multiplus", onTree fixMultilinePlus, .build⟩,
  ⟨b!"loadTop", moveLoadOnTop, .both⟩,
  ⟨b!"sameOriginLoad", compressFile, .both⟩,
  ⟨b!"sortLoadStatements", sortLoadStatements, .both⟩,
  ⟨b!"loadsort", sortAllLoadArgs, .both⟩,
  ⟨b!"useRepoPositionalsSort", sortUseRepoPositionals w, .moduleOnly⟩,
  ⟨b!"formatdocstrings", formatDocstrings, .both⟩,
  ⟨b!"reorderarguments", reorderArguments, .both⟩,
  ⟨b!"editoctal", onTree editOctals, .both⟩,
  ⟨b!"editfloat", onTree editFloats, .both⟩,
  ⟨b!"collapseEmpty", onTree collapseEmpty, .both⟩]

/-- rewrite.go:98: the condition under which a rewrite runs -/
def shouldRun (w : Config) (f : File) (r : Entry) : Bool :=
  match w.rewriteSet with
  | none => !disabled w r.name && r.scope.covers f.type
  | some set => rewriteSetContains set r.name

/-- rewrite.go:92-101: the loop of `Rewriter.Rewrite` over a table -/
def runRewrites (w : Config) (table : List Entry) (f : File) : File :=
  table.foldl (fun f r => if shouldRun w f r then r.fn f else f) f

/-- rewrite.go:91-100 `Rewriter.Rewrite` -/
def rewrite (w : Config) (f : File) : File := runRewrites w (rewrites w) f

end Verif.Rewrite
