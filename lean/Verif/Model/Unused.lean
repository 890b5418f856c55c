import Verif.Model.Uninit
import Verif.Model.LoadEdit
/-
Model of the unused-variable check: unusedVariableCheck in /repo/warn/warn_control_flow.go.

`WalkStatements` visits the statements of a scope in textual order, and the maps are only ever added to, so each statement is described by
what it adds. A finding is identified by the scope, whether it is about a function, and the name: its position is left out (it is that of
the first definition in the scope; if one statement assigns a name twice, Go may choose either). The order of the findings is arbitrary in Go.
-/
namespace Verif.Unused
open Verif Verif.Syntax Verif.Walk Verif.Edit

/-- `strings.HasPrefix(name, "_")` (warn/warn_control_flow.go:289, 297, 317, 446, 524, 536) -/
def underscored (n : Bytes) : Bool := hasPrefix n b!"_"

/-- `HasPrefix(n, "_")` for every assigned name (warn/warn_control_flow.go:286-293) -/
def allUnderscored (l : List Bytes) : Bool := l.all underscored

/-- warn/warn_control_flow.go:239-393 `extractIdentsFromStmt`: the assigned names of a statement, with the flag that suppresses the warning -/
def assigned : Expr → List (Bytes × Bool)
  | .assign c l p op lb r =>
    (Bzlenv.lvalues l).map fun n => (n, containsComments (.assign c l p op lb r) b!"@unused" ||
      (!allUnderscored (Bzlenv.lvalues l) && underscored n))
  | .forS _ _ v _ _ => (Bzlenv.lvalues v).map fun n => (n, underscored n)
  | _ => []

/-- build/utils.go:29-48 `GetParamIdent`: the name of a parameter, if it has one -/
def paramIdent : Expr → Option Bytes
  | .ident i => some i.name
  | .typedIdent _ i _ => some i.name
  | .assign _ l _ _ _ _ => paramIdent l
  | .unary _ _ _ x => paramIdent x
  | _ => none

/-- warn/warn_control_flow.go:441-454: the parameters, with the flag that suppresses the warning -/
def params (ps : List Expr) : List (Bytes × Bool) :=
  ps.flatMap fun p =>
    match paramIdent p with
    | some n => [(n, n = b!"name" || underscored n || containsComments p b!"@unused")]
    | none => []

/-- warn/warn_control_flow.go:455-469: the names used in the default values of the parameters. A default value is an expression, so of
`extractIdentsFromStmt` (239-393) only the case of an expression matters. -/
def defaults (ps : List Expr) : List Bytes :=
  ps.flatMap fun
    | .assign _ _ _ _ _ r => (Uninit.outerN (2 * size r) [] r).map (·.name)
    | _ => []

/-- What the statements of a scope add to `definedSymbols` and `suppressedWarnings` (`defs`), to `definedFunctions` and
`suppressedWarnings` (`funs`), to `usedSymbols` and to `findings` (warn/warn_control_flow.go:399-411). -/
structure Scan where
  defs : List (Bytes × Bool) := []
  funs : List (Bytes × Bool) := []
  used : List Bytes := []
  found : List (Expr × Bool × Bytes) := []

/-- one after the other (warn/warn_control_flow.go:413-496) -/
def Scan.add (a b : Scan) : Scan := ⟨a.defs ++ b.defs, a.funs ++ b.funs, a.used ++ b.used, a.found ++ b.found⟩

/-- the entries whose name is not in `seen` and has not occurred before: `if _, ok := definedSymbols[symbol.Name]; !ok`
(warn/warn_control_flow.go:486-492) -/
def firsts (seen : List Bytes) : List (Bytes × Bool) → List (Bytes × Bool)
  | [] => []
  | q :: l => if seen.contains q.1 then firsts seen l else q :: firsts (q.1 :: seen) l

/-- the defined names: parameters and variables (warn/warn_control_flow.go:402, 445, 487) -/
def symbols (ps : List Expr) (s : Scan) : List Bytes := (params ps).map (·.1) ++ s.defs.map (·.1)

/-- the suppressed names (warn/warn_control_flow.go:411, 427, 452, 489) -/
def suppressed (ps : List Expr) (s : Scan) : List Bytes :=
  ((params ps ++ s.funs ++ firsts ((params ps).map (·.1)) s.defs).filter (·.2)).map (·.1)

/-- the used names (warn/warn_control_flow.go:408) -/
def allUsed (ps : List Expr) (s : Scan) : List Bytes := defaults ps ++ s.used

/-- warn/warn_control_flow.go:502-511: the names used in a scope that come from outside -/
def fromOuter (ps : List Expr) (s : Scan) : List Bytes :=
  (allUsed ps s).filter fun n => !(symbols ps s).contains n && !(s.funs.map (·.1)).contains n

/-- the conditions of the two loops at the end (warn/warn_control_flow.go:516-530, 532-544); `top` is `ignoreTopLevel` -/
def reported (top : Bool) (ps : List Expr) (s : Scan) (n : Bytes) : Bool :=
  !(allUsed ps s).contains n && !(suppressed ps s).contains n && !(top && !underscored n)

/-- warn/warn_control_flow.go:513-546: all findings of a scope and those inside it (a map has every name once) -/
def close (top : Bool) (scope : Expr) (ps : List Expr) (s : Scan) : List (Expr × Bool × Bytes) :=
  s.found ++ ((symbols ps s).eraseDups.filter (reported top ps s)).map (fun n => (scope, false, n)) ++
    ((s.funs.map (·.1)).eraseDups.filter (reported top ps s)).map (fun n => (scope, true, n))

mutual
/-- warn/warn_control_flow.go:413-496: one statement of a scope, with the statements inside it -/
def scan1 : Expr → Scan
  | .defS c p n ps b cp fc fm t =>
    let s := scanL b
    { funs := [(n, containsComments (.defS c p n ps b cp fc fm t) b!"@unused")],
      used := fromOuter ps s, found := close false (.defS c p n ps b cp fc fm t) ps s }
  | .load .. => {}
  | .forS c p v x b =>
    Scan.add { defs := assigned (.forS c p v x b), used := (Uninit.used (.forS c p v x b)).map (·.name) } (scanL b)
  | .ifS c p cd t e f =>
    Scan.add { used := (Uninit.used (.ifS c p cd t e f)).map (·.name) } (Scan.add (scanL t) (scanL f))
  | e => { defs := assigned e, used := (Uninit.used e).map (·.name) }
/-- warn/warn_control_flow.go:413-496: the statements of a scope -/
def scanL : List Expr → Scan
  | [] => {}
  | s :: l => Scan.add (scan1 s) (scanL l)
end

/-- warn/warn_control_flow.go:551-554 `unusedVariableWarning`; `exports` is `f.Type == build.TypeBzl || f.Type == build.TypeDefault` -/
def unusedVariableWarning (exports : Bool) (f : File) : List (Expr × Bool × Bytes) :=
  close exports f.toExpr [] (scanL f.stmts)

end Verif.Unused
