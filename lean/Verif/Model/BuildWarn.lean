import Verif.Model.Bzlmod
/-
Model of the checks of /repo/warn/warn_bazel.go: constant globs, `native` in BUILD files, duplicated names, positional arguments, `*args`, `print`.

A finding is the node it points at. Messages, positions and the file types a check applies to are left out.
-/
namespace Verif.BuildWarn
open Verif Verif.Syntax Verif.Walk Verif.Edit

/-- warn_bazel.go:36-51 `constantGlobPatternWarning`: the first string without a star -/
def constantPattern : List Expr → Option Expr
  | [] => none
  | .string s :: l => if s.value.contains c!"*" then constantPattern l else some (.string s)
  | _ :: l => constantPattern l

/-- warn_bazel.go:78-91: the value of the first `include = […]` -/
def includeList : List Expr → Option (List Expr)
  | [] => none
  | .assign _ (.ident i) _ _ _ (.list _ _ ps _ _) :: l => if i.name = b!"include" then some ps else includeList l
  | _ :: l => includeList l

/-- warn_bazel.go:62-92, the callback of `constantGlobWarning`: the finding at one node -/
def globFinding : Expr → Option Expr
  | .call _ (.ident i) _ (a :: l) _ _ _ =>
    if i.name = b!"glob" then
      match a with
      | .list _ _ ps _ _ => constantPattern ps
      | a => (includeList (a :: l)).bind constantPattern
    else none
  | _ => none

/-- `build.Walk` with a callback that adds findings (warn_bazel.go:62, 133, 199, 235) -/
def collect (check : Expr → List Expr) (f : Expr) : List Expr := walk (fun (log : List Expr) x _ => log ++ check x) [] f

/-- warn_bazel.go:53-96 `constantGlobWarning` -/
def constantGlob (f : Expr) : List Expr := collect (fun x => (globFinding x).toList) f

/-- the member `x` of `native.x` (warn_bazel.go:104-111) -/
def nativeMember : Expr → Option Bytes
  | .dot _ (.ident i) _ _ n => if i.name = b!"native" then some n else none
  | _ => none

/-- warn_bazel.go:103-117: the nodes `nativeInBuildFilesWarning` reports -/
def nativeUses (f : Expr) : List Expr := collect (fun x => if (nativeMember x).isSome then [x] else []) f

/-- warn_bazel.go:113-116 with the replacements applied (warn/warn.go:285-289): a replaced node has no replaced node inside. `n` is the recursion budget. -/
def nativeN : Nat → Expr → Expr
  | 0, e => e
  | n + 1, e =>
    match nativeMember e with
    | some m => .ident { name := m }
    | none => withSlots e ((slots e).map (nativeN n))

/-- the same with the recursion budget that suffices (warn_bazel.go:98-121 `nativeInBuildFilesWarning`) -/
def dropNative (f : Expr) : Expr := nativeN (size f) f

/-- warn_bazel.go:131-143: the call `native.package(…)` -/
def isNativePackage : Expr → Bool
  | .call _ (.dot _ (.ident i) _ _ n) _ _ _ _ _ => n = b!"package" ∧ i.name = b!"native"
  | _ => false

/-- warn_bazel.go:123-148 `nativePackageWarning` -/
def nativePackage (f : Expr) : List Expr := collect (fun x => if isNativePackage x then [x] else []) f

/-- the explicit name of a rule (build/rule.go:206-208 `ExplicitName`) -/
def nameOf : Expr → Bytes
  | .call _ _ _ l _ _ _ => attrString b!"name" l
  | _ => []

/-- the loop of warn_bazel.go:160-178; `seen`: the names in the map -/
def duplicatedLoop : List Bytes → List Expr → List Expr
  | _, [] => []
  | seen, r :: l =>
    if nameOf r = [] then duplicatedLoop seen l
    else if seen.contains (nameOf r) then r :: duplicatedLoop seen l
    else duplicatedLoop (nameOf r :: seen) l

/-- warn_bazel.go:150-180 `duplicatedNameWarning`: the rules reported -/
def duplicated (stmts : List Expr) : List Expr := duplicatedLoop [] (Bzlmod.rules [] stmts)

/-- warn_bazel.go:28-34 `functionsWithPositionalArguments` -/
def positionalOk (n : Bytes) : Bool :=
  n = b!"exports_files" || n = b!"licenses" || n = b!"print" || n = b!"register_toolchains" || n = b!"vardef"

/-- warn_bazel.go:186-191: the first argument that is not an assignment -/
def firstPositional : List Expr → Option Expr
  | [] => none
  | .assign .. :: l => firstPositional l
  | .nil :: l => firstPositional l
  | e :: _ => some e

/-- warn_bazel.go:182-193 `positionalArgumentsWarning` -/
def positionalFinding : Expr → Option Expr
  | .call _ (.ident i) _ l _ _ _ => if positionalOk i.name then none else firstPositional l
  | _ => none

/-- warn/warn.go:255-269: one statement in `ruleWarningWrapper` -/
def wrappedStmt (check : Expr → Option Expr) : Expr → List Expr
  | .call c x p l t a b => (check (.call c x p l t a b)).toList
  | .compr _ _ _ (.call c x p l t a b) _ _ _ => (check (.call c x p l t a b)).toList
  | _ => []

/-- warn/warn.go:248-273 `ruleWarningWrapper`: the calls that are statements, or the body of a comprehension that is one -/
def wrapped (check : Expr → Option Expr) (stmts : List Expr) : List Expr := stmts.flatMap (wrappedStmt check)

/-- warn_bazel.go:182-193 with its wrapper -/
def positional (stmts : List Expr) : List Expr := wrapped positionalFinding stmts

/-- `*x` and `**x` (warn_bazel.go:207-219) -/
def isStarred : Expr → Bool
  | .unary _ _ op _ => op = b!"*" || op = b!"**"
  | _ => false

/-- warn_bazel.go:195-223 `argsKwargsInBuildFilesWarning` -/
def argsKwargs (f : Expr) : List Expr :=
  collect (fun x => match x with
    | .call _ _ _ l _ _ _ => l.filter isStarred
    | _ => []) f

/-- warn_bazel.go:232-240: the call `print(…)` -/
def isPrint : Expr → Bool
  | .call _ (.ident i) _ _ _ _ _ => i.name = b!"print"
  | _ => false

/-- warn_bazel.go:225-245 `printWarning` -/
def prints (f : Expr) : List Expr := collect (fun x => if isPrint x then [x] else []) f

end Verif.BuildWarn
