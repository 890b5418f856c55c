import Verif.Model.Bzlenv
import Verif.Model.LoadEdit
import Verif.Model.Labels
/-
Model of the check for functions and symbols that are no longer global and must be loaded (`notLoadedUsageCheck` in
/repo/warn/warn_bazel_api.go), with the load it inserts and the calls `native.f(...)` it rewrites.

A finding keeps the name and whether it has the rewriting of its call; message and position are left out. The fixed file is what
`runWarningsFunction` (warn/warn.go:276-309) makes of the file when no finding is disabled by a comment.
-/
namespace Verif.NotLoaded
open Verif Verif.Syntax Verif.Walk Verif.Rewrite Verif.Edit Verif.Bzlenv

/-- a finding: the name, and whether the finding replaces `native.name(…)` by `name(…)` (warn_bazel_api.go:237-244, 265-268) -/
structure Found where
  name : Bytes
  native : Bool
deriving DecidableEq, Repr

/-- warn_bazel_api.go:200-249 `notLoadedFunctionUsageCheckInternal` -/
def functionUse (globals : List Bytes) (e : Expr) (env : Env) : List Found :=
  match e with
  | .call _ (.dot _ (.ident i) _ _ name) _ _ _ _ _ => if i.name = b!"native" ∧ globals.contains name then [⟨name, true⟩] else []
  | .call _ (.ident i) _ _ _ _ _ => if (get i.name env.blocks).isNone ∧ globals.contains i.name then [⟨i.name, false⟩] else []
  | _ => []

/-- warn_bazel_api.go:251-274 `notLoadedSymbolUsageCheckInternal` -/
def symbolUse (globals : List Bytes) (e : Expr) (env : Env) : List Found :=
  match e with
  | .ident i => if (get i.name env.blocks).isNone ∧ globals.contains i.name then [⟨i.name, false⟩] else []
  | _ => []

/-- warn_bazel_api.go:279-300: the findings, in order -/
def findings (functions symbols : List Bytes) (f : Expr) : List Found :=
  (walkAll f).flatMap fun v => functionUse functions v.1 v.2 ++ symbolUse symbols v.1 v.2

/-- the keys of the map `toLoad` (warn_bazel_api.go:280, 289-296) -/
def keys : List Found → List Bytes
  | [] => []
  | x :: l => if (keys l).contains x.name then keys l else x.name :: keys l

/-- warn_bazel_api.go:308-313: the names to load, sorted; `srt` is `sort.Strings` -/
def names (srt : List Bytes → List Bytes) (fs : List Found) : List Bytes := srt (keys fs)

/-- neither a comment nor a string (warn_bazel_api.go:155-161) -/
def isCode : Expr → Bool
  | .commentBlock .. => false
  | .string _ => false
  | _ => true

/-- warn_bazel_api.go:152-162: the value of `i` after the loop, the last index if the loop finds nothing -/
def place (stmts : List Expr) : Nat :=
  match stmts.findIdx? isCode with
  | some i => i
  | none => stmts.length - 1

/-- warn_bazel_api.go:134-169 `insertLoad`: the statements, with a placeholder if a new load is needed, and the replacement. The booleans says whether
`f.Stmt` is a new slice. -/
def insertLoad (ord : SymMap → SymMap) (stmts : List Expr) (module : Bytes) (symbols : List Bytes) : List Expr × Bool × Option (Nat × Expr) :=
  match stmts.findIdx? (loadsFrom module) with
  | some i =>
    match stmts[i]? with
    | some l =>
      let r := appendToLoad ord symbols symbols l
      (stmts, false, if r.2 then some (i, r.1) else none)
    | none => (stmts, false, none)
  | none =>
    let i := place stmts
    (stmts.take i ++ [.nil] ++ stmts.drop i, true, some (i, newLoad module symbols symbols))

/-- warn_bazel_api.go:222-224: `native.f(…)` becomes `f(…)` -/
def dropNative (functions : List Bytes) (e : Expr) : Expr :=
  match e with
  | .call c (.dot _ (.ident i) _ _ name) p l t a b =>
    if i.name = b!"native" ∧ functions.contains name then .call c (.ident { name := name }) p l t a b else e
  | e => e

/-- The replacements of all findings inside a node. The new call shares its arguments with the old one, so that replacements inside the arguments reach
it (warn_bazel_api.go:222-224, warn/warn.go:285-289). `n` is the recursion budget. -/
def nativeN (functions : List Bytes) : Nat → Expr → Expr
  | 0, e => e
  | n + 1, e => dropNative functions (withSlots e ((slots e).map (nativeN functions n)))

/-- the same with the recursion budget that suffices -/
def dropNatives (functions : List Bytes) (e : Expr) : Expr := nativeN functions (size e) e

/-- the same without the node itself (warn_bazel_api.go:164-167): the address of a statement is that of the old slice if `f.Stmt` has been replaced -/
def insideOnly (functions : List Bytes) (e : Expr) : Expr := withSlots e ((slots e).map (dropNatives functions))

/-- warn_bazel_api.go:278-324 `notLoadedUsageCheck`, followed by the application of all replacements (warn/warn.go:285-289) -/
def fixed (srt : List Bytes → List Bytes) (ord : SymMap → SymMap) (functions symbols : List Bytes) (module : Bytes) (c : Comments) (stmts : List Expr) : List Expr :=
  let fs := findings functions symbols (.file c stmts)
  if fs.isEmpty then stmts
  else
    let r := insertLoad ord stmts module (names srt fs)
    let out := r.1.map (if r.2.1 then insideOnly functions else dropNatives functions)
    match r.2.2 with
    | some (i, l) => out.set i l
    | none => out

/-! ### the repository of the module -/

/-- warn_bazel_api.go:172-198 `useApparentRepoNameIfExternal`: the label to load from, and the cache afterwards. `extract` is
`bzlmod.ExtractModuleToApparentNameMapping` for the reader at hand, absent without a reader; `legacy` is `tables.ModuleToLegacyRepoName`. -/
def useApparent (legacy : Bytes → Bytes) (extract : Option (Bytes → Bytes)) (cache : Option (Bytes → Bytes)) (load : Bytes) : Bytes × Option (Bytes → Bytes) :=
  match extract with
  | none => (load, cache)
  | some x =>
    if !hasPrefix load b!"@" then (load, cache)
    else
      let m := cache.getD x
      let l := Labels.parse load
      let a := m l.repository
      let a := if a = [] then (if legacy l.repository = [] then l.repository else legacy l.repository) else a
      (Labels.format { l with repository := a }, some m)

end Verif.NotLoaded
