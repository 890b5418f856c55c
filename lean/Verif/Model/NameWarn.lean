import Verif.Model.Uninit
import Verif.Model.Strings
/-
Model of /repo/warn/warn_visibility.go and /repo/warn/warn_naming.go.

A finding is the load or the name it is about. Messages and positions are left out. Names are ASCII.
-/
namespace Verif.NameWarn
open Verif Verif.Syntax Verif.Walk

/-! ### visibility of .bzl files -/

/-- what follows the first occurrence of `p`, which is not empty (`strings.SplitN(s, p, 2)`, warn_visibility.go:56) -/
def after (p : Bytes) : Bytes → Option Bytes
  | [] => none
  | c :: l => if p.isPrefixOf (c :: l) then some ((c :: l).drop p.length) else after p l

/-- warn_visibility.go:54-59: the label without its repository -/
def dropRepo (m : Bytes) : Bytes :=
  if hasPrefix m b!"@" then
    match after b!"//" m with
    | some r => b!"//" ++ r
    | none => m
  else m

/-- the regular expression `/(internal|private)[/:]` matches here (warn_visibility.go:29) -/
def matchesHere (s : Bytes) : Bool :=
  b!"/internal/".isPrefixOf s || b!"/internal:".isPrefixOf s || b!"/private/".isPrefixOf s || b!"/private:".isPrefixOf s

/-- what is before the first match of the regular expression (warn_visibility.go:62-65) -/
def beforeInternal : Bytes → Option Bytes
  | [] => none
  | c :: l => if matchesHere (c :: l) then some [] else (beforeInternal l).map (c :: ·)

/-- `strings.Replace(s, old, new, 1)`, where `old` is not empty (warn_visibility.go:68) -/
def replaceFirst (old new : Bytes) : Bytes → Bytes
  | [] => []
  | c :: l => if old.isPrefixOf (c :: l) then new ++ (c :: l).drop old.length else c :: replaceFirst old new l

/-- warn_visibility.go:54-70 for one module; `path`: the canonical path of the file -/
def hidden (path module : Bytes) : Bool :=
  match beforeInternal (dropRepo module) with
  | none => false
  | some d => !(hasPrefix path d || hasPrefix (replaceFirst b!"/javatests/" b!"/java/" path) d)

/-- warn_visibility.go:31-78 `bzlVisibilityWarning`: the modules reported. `root`: `f.WorkspaceRoot`. -/
def bzlVisibility (root path : Bytes) (stmts : List Expr) : List Bytes :=
  if root = [] then []
  else stmts.flatMap fun
    | .load _ _ m _ _ _ _ => if hidden path m.value then [m.value] else []
    | _ => []

/-! ### names -/

/-- warn_naming.go:27-31 -/
def ambiguous (n : Bytes) : Bool := n = b!"I" || n = b!"l" || n = b!"O"

/-- the names of the clauses of a comprehension (warn_naming.go:60-69) -/
def clauseNames : Expr → List Bytes
  | .forClause _ _ v _ _ => Bzlenv.lvalues v
  | _ => []

/-- warn_naming.go:50-70: the names looked at at one node -/
def introduced : Expr → List Bytes
  | .defS _ _ n ps b _ _ _ _ => n :: (ps.map Bzlenv.paramName ++ Uninit.localsL b)
  | .compr _ _ _ _ cl _ _ => cl.flatMap clauseNames
  | _ => []

/-- warn_naming.go:42-74 `confusingNameWarning` -/
def confusing (c : Comments) (stmts : List Expr) : List Bytes :=
  (Uninit.localsL stmts).filter ambiguous ++ walk (fun (log : List Bytes) x _ => log ++ (introduced x).filter ambiguous) [] (.file c stmts)

/-- `strings.ToUpper` on one byte (warn_naming.go:89) -/
def upperByte (c : UInt8) : UInt8 := if 97 ≤ c && c ≤ 122 then c - 32 else c

/-- `strings.Title` of a word of letters and digits (warn_naming.go:81) -/
def title : Bytes → Bytes
  | [] => []
  | c :: l => upperByte c :: l

/-- warn_naming.go:76-82 `isUpperCamelCase` -/
def isUpperCamelCase (n : Bytes) : Bool :=
  let m := trimPrefix n b!"_"
  !m.contains c!"_" && m = title m

/-- warn_naming.go:84-86 `isLowerSnakeCase` -/
def isLowerSnakeCase (n : Bytes) : Bool := n = toLower n

/-- warn_naming.go:88-90 `isUpperSnakeCase` -/
def isUpperSnakeCase (n : Bytes) : Bool := n = n.map upperByte

/-- warn_naming.go:103-112: is the name reported? -/
def unconventional (n : Bytes) : Bool :=
  !(isLowerSnakeCase n || isUpperSnakeCase n) && !(isUpperCamelCase n && hasSuffix n b!"Info")

/-- warn_naming.go:98-112, one statement -/
def badNames : Expr → List Bytes
  | .assign _ l _ _ _ _ => (Bzlenv.lvalues l).filter unconventional
  | _ => []

/-- warn_naming.go:92-117 `nameConventionsWarning` -/
def conventions (f : Expr) : List Bytes := (Flow.walkSt (fun _ _ => false) [] f).flatMap fun q => badNames q.2.2

end Verif.NameWarn
