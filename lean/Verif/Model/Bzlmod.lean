import Verif.Model.Rules
import Verif.Model.Walk
import Verif.Model.Labels
/-
Model of /repo/edit/bzlmod/bzlmod.go, and of `File.Rules` of /repo/build/rule.go.

A `*CallExpr` obtained from a file is the index of the statement in the file; updating the call through the pointer is updating that
statement. Maps and sets are lists (all uses are membership, or lookups where the last insertion wins).
-/
namespace Verif.Bzlmod
open Verif Verif.Syntax Verif.Edit Verif.Walk Verif.Labels

/-! ### build/rule.go: all rules of a file -/

/-- a `*build.CallExpr` (build/syntax.go) -/
def isCall : Expr → Bool
  | .call .. => true
  | _ => false

/-- build/rule.go:48-64: the callback of `File.rules` with the condition `p` on the call -/
def rulesCallback (p : Expr → List Expr → Bool) (all : List Expr) (x : Expr) (stk : List Expr) : List Expr :=
  match x with
  | .call _ f _ l _ _ _ => if stk.any isCall then all else if p f l then all ++ [x] else all
  | _ => all

/-- build/rule.go:45-72 `File.rules`: the calls (not inside another call) anywhere in the file -/
def rulesWhere (p : Expr → List Expr → Bool) (stmts : List Expr) : List Expr :=
  stmts.foldl (fun all stmt => walk (rulesCallback p) all stmt) []

/-- build/rule.go:76-81 `File.Rules` -/
def rules (kind : Bytes) (stmts : List Expr) : List Expr :=
  rulesWhere (fun x _ => kind = [] || kindOf x = kind) stmts

/-! ### use_repo -/

/-- bzlmod.go:197-209 `repoFromUseRepoArg` -/
def repoFromUseRepoArg : Expr → Bytes
  | .string s => s.value
  | .assign _ _ _ _ _ (.string s) => s.value
  | _ => []

/-- bzlmod.go:79-95: the conditions on a statement of `UseRepos` -/
def isUseRepo (proxies : List Bytes) : Expr → Bool
  | .call _ (.ident i) _ (.ident p :: _) _ _ _ => i.name = b!"use_repo" ∧ p.name ∈ proxies
  | _ => false

/-- bzlmod.go:71-100 `UseRepos` -/
def useRepos (stmts : List Expr) (proxies : List Bytes) : List Nat :=
  (List.range stmts.length).filter fun i => isUseRepo proxies (stmts.getD i .nil)

/-- `call.List` (build/syntax.go `CallExpr`) -/
def callArgs : Expr → List Expr
  | .call _ _ _ l _ _ _ => l
  | _ => []

/-- `call.List = l` (build/syntax.go `CallExpr`) -/
def setCallArgs (l : List Expr) : Expr → Expr
  | .call c x p _ e a b => .call c x p l e a b
  | e => e

/-- `call.Pos.Byte`: the position of the closing parenthesis (the embedded `End`) (build/syntax.go `CallExpr`) -/
def callEnd : Expr → Nat
  | .call _ _ _ _ e _ _ => e.pos.byte
  | _ => 0

/-- bzlmod.go:185-193 `getLastUseRepo`, the loop -/
def lastUseRepoLoop (stmts : List Expr) : List Nat → Option Nat → Option Nat
  | [], last => last
  | i :: l, none => lastUseRepoLoop stmts l (some i)
  | i :: l, some j =>
    lastUseRepoLoop stmts l (some (if callEnd (stmts.getD i .nil) > callEnd (stmts.getD j .nil) then i else j))

/-- bzlmod.go:185-193 `getLastUseRepo` -/
def getLastUseRepo (stmts : List Expr) (calls : List Nat) : Option Nat := lastUseRepoLoop stmts calls none

/-- bzlmod.go:133-142: the repos of the calls -/
def seenRepos (stmts : List Expr) (calls : List Nat) : List Bytes :=
  calls.flatMap fun i => (callArgs (stmts.getD i .nil)).tail.map repoFromUseRepoArg

/-- bzlmod.go:125-153 `AddRepoUsages`; `none` is the panic -/
def addRepoUsages (stmts : List Expr) (calls : List Nat) (repos : List Bytes) : Option (List Expr) :=
  if repos = [] then some stmts
  else match getLastUseRepo stmts calls with
    | none => none
    | some last =>
      let seen := seenRepos stmts calls
      some (stmts.set last (repos.foldl (fun call repo =>
        if repo ∈ seen then call else setCallArgs (callArgs call ++ [.string { value := repo }]) call) (stmts.getD last .nil)))

/-- bzlmod.go:168-182: one iteration of `RemoveRepoUsages` -/
def removeRepoCall (repos : List Bytes) (call : Expr) : Expr :=
  match callArgs call with
  | [] => call
  | x :: l => setCallArgs (x :: l.filter fun arg => repoFromUseRepoArg arg ∉ repos) call

/-- bzlmod.go:158-183 `RemoveRepoUsages` -/
def removeRepoUsages (stmts : List Expr) (calls : List Nat) (repos : List Bytes) : List Expr :=
  if calls = [] ∨ repos = [] then stmts
  else calls.foldl (fun stmts i => stmts.set i (removeRepoCall repos (stmts.getD i .nil))) stmts

/-! ### extension proxies -/

/-- bzlmod.go:285-302 `parseBooleanKeywordArg` -/
def parseBooleanKeywordArg (name : Bytes) : Expr → Bool
  | .assign _ (.ident i) _ _ _ (.ident v) => i.name = name ∧ v.name ≠ b!"False"
  | .assign _ (.ident i) _ _ _ _ => i.name = name
  | _ => false

/-- the results of `parseUseExtension` (edit/bzlmod/bzlmod.go `parseUseExtension`) -/
structure UseExt where
  proxy : Bytes := []
  bzl : Bytes := []
  name : Bytes := []
  dev : Bool := false
  isolate : Bool := false
deriving DecidableEq, Repr

/-- bzlmod.go:243-281 `parseUseExtension` -/
def parseUseExtension : Expr → UseExt
  | .assign _ (.ident p) _ _ _ (.call _ (.ident f) _ (.string b :: .string n :: args) _ _ _) =>
    if f.name ≠ b!"use_extension" then {}
    else ⟨p.name, b.value, n.value, args.any (parseBooleanKeywordArg b!"dev_dependency"), args.any (parseBooleanKeywordArg b!"isolate")⟩
  | _ => {}

/-- bzlmod.go:213-225 `getApparentModuleName` -/
def getApparentModuleName (stmts : List Expr) : Bytes :=
  (rules b!"module" stmts).foldl (fun a m =>
    if attrString b!"repo_name" (callArgs m) ≠ [] then attrString b!"repo_name" (callArgs m)
    else if attrString b!"name" (callArgs m) ≠ [] then attrString b!"name" (callArgs m) else a) []

/-- bzlmod.go:228-241 `normalizeLabelString` -/
def normalizeLabelString (raw apparent : Bytes) : Bytes :=
  let l := parseRelative raw []
  format (if l.repository = [] then { l with repository := apparent } else l)

/-- bzlmod.go:31-48 `Proxies` -/
def proxies (stmts : List Expr) (bzl name : Bytes) (dev : Bool) : List Bytes :=
  let apparent := getApparentModuleName stmts
  stmts.filterMap fun s =>
    let u := parseUseExtension s
    if u.proxy = [] ∨ u.dev ≠ dev ∨ u.isolate then none
    else if normalizeLabelString u.bzl apparent = normalizeLabelString bzl apparent ∧ u.name = name then some u.proxy else none

/-- bzlmod.go:57-68 `AllProxies`, the loop -/
def allProxiesLoop (stmts : List Expr) (proxy : Bytes) : List Expr → List Bytes
  | [] => []
  | s :: l =>
    let u := parseUseExtension s
    if u.proxy = proxy then (if u.isolate then [proxy] else proxies stmts u.bzl u.name u.dev)
    else allProxiesLoop stmts proxy l

/-- bzlmod.go:57-68 `AllProxies` -/
def allProxies (stmts : List Expr) (proxy : Bytes) : List Bytes := allProxiesLoop stmts proxy stmts

/-- bzlmod.go:304-317 `parseTag` -/
def parseTag : Expr → Bytes
  | .call _ (.dot _ (.ident i) _ _ _) _ _ _ _ _ => i.name
  | _ => []

/-- bzlmod.go:330-348: the proxy used by a statement, if it is one of the given ones -/
def usedProxy (proxies : List Bytes) (s : Expr) : Option Bytes :=
  if (parseUseExtension s).proxy ≠ [] ∧ (parseUseExtension s).proxy ∈ proxies then some (parseUseExtension s).proxy
  else if parseTag s ≠ [] ∧ parseTag s ∈ proxies then some (parseTag s)
  else none

/-- bzlmod.go:322-352 `lastProxyUsage`: the number of statements up to the last usage (0 if there is none), and the proxy -/
def lastProxyUsage (proxies : List Bytes) : List Expr → Nat × Bytes
  | [] => (0, [])
  | s :: l =>
    let r := lastProxyUsage proxies l
    if r.1 ≠ 0 then (r.1 + 1, r.2)
    else match usedProxy proxies s with
      | some p => (1, p)
      | none => (0, [])

/-- bzlmod.go:104-119 `NewUseRepo`: the statements and the index of the new call -/
def newUseRepo (stmts : List Expr) (proxies : List Bytes) : List Expr × Option Nat :=
  let (k, proxy) := lastProxyUsage proxies stmts
  if k = 0 then (stmts, none)
  else (stmts.take k ++ .call {} (.ident { name := b!"use_repo" }) {} [.ident { name := proxy }] {} false false :: stmts.drop k, some k)

/-- edit/buildozer.go:867-878: the end of `cmdUseRepo`: add (or remove) the repos at all the calls of the proxies, with a new call if
there is none. `none`: a panic (nil dereference) -/
def editUseRepo (add : Bool) (stmts : List Expr) (proxies repos : List Bytes) : Option (List Expr) :=
  let apply := fun stmts calls => if add then addRepoUsages stmts calls repos else some (removeRepoUsages stmts calls repos)
  if useRepos stmts proxies = [] then
    match newUseRepo stmts proxies with
    | (_, none) => none
    | (stmts', some i) => apply stmts' [i]
  else apply stmts (useRepos stmts proxies)

/-! ### apparent names -/

/-- Go `path.Clean`, elements before the current one on the stack (last first) -/
def cleanStack (rooted : Bool) : List Bytes → List Bytes → List Bytes
  | stk, [] => stk
  | stk, c :: l =>
    if c = [] ∨ c = b!"." then cleanStack rooted stk l
    else if c = b!".." then
      match stk with
      | [] => cleanStack rooted (if rooted then [] else [c]) l
      | t :: r => if t = b!".." then cleanStack rooted (c :: stk) l else cleanStack rooted r l
    else cleanStack rooted (c :: stk) l

/-- Go `path.Clean` -/
def pathClean (p : Bytes) : Bytes :=
  let rooted := hasPrefix p b!"/"
  let r := joinWith c!"/" (cleanStack rooted [] (splitAll c!"/" p)).reverse
  if rooted then c!"/" :: r else if r = [] then b!"." else r

/-- Go `path.Join` of two elements -/
def pathJoin2 (a b : Bytes) : Bytes :=
  if a = [] then (if b = [] then [] else pathClean b)
  else pathClean (if b = [] then a else a ++ c!"/" :: b)

/-- bzlmod.go:406-431: one iteration of `collectApparentNamesAndIncludes` -/
def collectRule (r : List (Bytes × Bytes) × List Bytes) : Expr → List (Bytes × Bytes) × List Bytes
  | .call _ x _ l _ _ _ =>
    if attrString b!"name" l = [] then
      match x, l with
      | .ident i, [.string s] => if i.name ≠ b!"include" then r else (r.1, r.2 ++ [s.value])
      | _, _ => r
    else if kindOf x ≠ b!"module" ∧ kindOf x ≠ b!"bazel_dep" then r
    else if attrString b!"repo_name" l ≠ [] then (r.1 ++ [(attrString b!"name" l, attrString b!"repo_name" l)], r.2)
    else (r.1 ++ [(attrString b!"name" l, attrString b!"name" l)], r.2)
  | _ => r

/-- bzlmod.go:402-434 `collectApparentNamesAndIncludes`: the bindings in order (a later one overwrites an earlier one), and the labels -/
def collectOne (stmts : List Expr) : List (Bytes × Bytes) × List Bytes := (rules [] stmts).foldl collectRule ([], [])

/-- bzlmod.go:393-394: the path of an included file -/
def includePath (label : Bytes) : Bytes := pathJoin2 (parse label).package (parse label).target

/-- the state of the loop of `collectApparentNames`; `names` in the order of insertion (edit/bzlmod/bzlmod.go `collectApparentNames`) -/
structure Collect where
  names : List (Bytes × Bytes) := []
  /-- also the log of the files that have been read, latest first -/
  seen : List Bytes := []
  queue : List Bytes
  /-- the function has returned nil -/
  failed : Bool := false
deriving DecidableEq, Repr

/-- bzlmod.go:377-397: one iteration of the loop. `reader` gives the statements of a file, `none` is nil. -/
def collectStep (reader : Bytes → Option (List Expr)) (s : Collect) : Collect :=
  match s.queue with
  | [] => s
  | f :: q =>
    if f ∈ s.seen then { s with queue := q }
    else match reader f with
      | none => { s with seen := f :: s.seen, queue := [], failed := true }
      | some bf =>
        let r := collectOne bf
        { s with names := s.names ++ r.1, seen := f :: s.seen, queue := q ++ r.2.map includePath }

/-- bzlmod.go:372-400 `collectApparentNames`: the loop, at most `n` iterations -/
def collectLoop (reader : Bytes → Option (List Expr)) : Nat → Collect → Collect
  | 0, s => s
  | n + 1, s => if s.queue = [] then s else collectLoop reader n (collectStep reader s)

/-- Go map lookup: the last binding of the name, "" if there is none (edit/bzlmod/bzlmod.go) -/
def lookupName (names : List (Bytes × Bytes)) (name : Bytes) : Bytes :=
  names.foldl (fun r b => if b.1 = name then b.2 else r) []

/-- bzlmod.go:361-367 `ExtractModuleToApparentNameMapping`; a nil map has no entries -/
def apparentName (s : Collect) (name : Bytes) : Bytes := if s.failed then [] else lookupName s.names name

end Verif.Bzlmod
