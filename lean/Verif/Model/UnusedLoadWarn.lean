import Verif.Model.LoadEdit
/-
Model of the `load` warning: unusedLoadWarning in /repo/warn/warn_control_flow.go, with UsedTypes (edit/edit.go) and GetTypes
(build/utils.go).

Simplification: the text of a message is represented by its kind and the line it mentions.
-/
namespace Verif.UnusedLoadWarn
open Verif Verif.Syntax Verif.Walk Verif.Rewrite Verif.Edit

/-- build/utils.go:55-81 `GetTypes`; `n` is the recursion budget. -/
def getTypesN : Nat → Expr → List Bytes
  | 0, _ => []
  | n + 1, e =>
    match e with
    | .typedIdent _ _ t => getTypesN n t
    | .ident i => [i.name]
    | .defS _ _ _ ps _ _ _ _ t => getTypesN n t ++ ps.flatMap (getTypesN n)
    | .index _ x _ y _ => getTypesN n x ++ getTypesN n y
    | .dot _ x _ _ name => if name = b!"type" then getTypesN n x else []
    | _ => []

/-- build/utils.go:55-81 `GetTypes` -/
def getTypes (e : Expr) : List Bytes := getTypesN (size e) e

/-- edit/edit.go:1023-1044 `UsedTypes` on a node: `n` is the recursion budget. -/
def typesN : Nat → Expr → List Bytes
  | 0, _ => []
  | n + 1, v =>
    match v with
    | .load .. => []
    | .typedIdent .. => getTypes v
    | .defS .. => getTypes v ++ (slots v).flatMap (typesN n)
    | v => (slots v).flatMap (typesN n)

/-- edit/edit.go:1023-1044 `UsedTypes` -/
def usedTypes (v : Expr) : List Bytes := typesN (size v) v

/-- What a finding says (warn/warn_control_flow.go:627-660): the symbol has been loaded already, something else has been loaded under
the name (on the given line), or the symbol is unused. -/
inductive Kind where
  | duplicate (line : Nat)
  | different (line : Nat)
  | unused
deriving DecidableEq, Repr

/-- One finding (warn/warn_control_flow.go:627-660): the local name it is reported at, and what it says. -/
structure UF where
  to_ : IdentN
  kind : Kind
deriving DecidableEq, Repr

/-- the entries of the map `loaded` (warn/warn_control_flow.go:591-594) -/
structure Origin where
  label : Bytes
  from_ : Bytes
  line : Nat
deriving DecidableEq, Repr

/-- the map `loaded` (warn/warn_control_flow.go:591-594) -/
abbrev Loaded := List (Bytes × Origin)

/-- warn/warn_control_flow.go:612-664: the loop over the symbols of one load: the map, the symbols that stay, and the findings.
`used` is the union of `symbols` and `types`, `marked` whether the load is marked `@unused`, `token` is `load.Module.Token`. -/
def checkArgs (used : List Bytes) (marked : Bool) (token : Bytes) : Loaded → List LoadArg → Loaded × List LoadArg × List UF
  | m, [] => (m, [], [])
  | m, q :: l =>
    let r := checkArgs used marked token ((q.2.name, ⟨token, q.1.name, q.1.namePos.line⟩) :: m) l
    match m.lookup q.2.name with
    | some o =>
      if o.label = token ∧ o.from_ = q.1.name then (r.1, r.2.1, ⟨q.2, .duplicate o.line⟩ :: r.2.2)
      else (r.1, q :: r.2.1, ⟨q.2, .different o.line⟩ :: r.2.2)
    | none =>
      if !used.contains q.2.name && !marked && !containsComments (.ident q.2) b!"@unused" && !containsComments (.ident q.1) b!"@unused" then
        (r.1, r.2.1, ⟨q.2, .unused⟩ :: r.2.2)
      else (r.1, q :: r.2.1, r.2.2)

/-- warn/warn_control_flow.go:671-677: the new statement, with the given symbols -/
def newStmt (srt : List LoadArg → List LoadArg) (e : Expr) (k : List LoadArg) : Expr :=
  match e with
  | .load c p m _ _ r fc =>
    match sortLoadArgs srt (.load c p m (k.map (·.1)) (k.map (·.2)) r fc) with
    | .load _ _ _ _ [] _ _ => .nil
    | e' => e'
  | e => e

/-- warn/warn_control_flow.go:589-692 `unusedLoadWarning`: the loop over the statements from number `i` on. The result is the
findings of every load that has any, with the replacement (the number of the statement and what it becomes), which Go attaches to
the first of them. -/
def checkLoads (srt : List LoadArg → List LoadArg) (used : List Bytes) : Loaded → Nat → List Expr → List (List UF × Nat × Expr)
  | _, _, [] => []
  | m, i, e :: l =>
    match e with
    | .load _ _ mo f t _ _ =>
      let r := checkArgs used (containsComments e b!"@unused") mo.token m (f.zip t)
      match r.2.2 with
      | [] => checkLoads srt used r.1 (i + 1) l
      | fs => (fs, i, newStmt srt e r.2.1) :: checkLoads srt used r.1 (i + 1) l
    | _ => checkLoads srt used m (i + 1) l

/-- warn/warn_control_flow.go:589-692 `unusedLoadWarning` -/
def unusedLoadWarning (srt : List LoadArg → List LoadArg) (f : File) : List (List UF × Nat × Expr) :=
  checkLoads srt (usedSymbols f.toExpr ++ usedTypes f.toExpr) [] 0 f.stmts

/-- warn/warn.go:276-309 `runWarningsFunction` in fix mode, on these findings: the replacement belongs to the first finding of its
load, and is skipped if that one is disabled (`disabled` says on which lines, given the statements as they are then). -/
def applyFix (disabled : List Expr → Nat → Bool) (fs : List (List UF × Nat × Expr)) (stmts : List Expr) : List Expr :=
  fs.foldl (fun s r =>
    match r.1 with
    | [] => s
    | w :: _ => if disabled s w.to_.namePos.line then s else s.set r.2.1 r.2.2) stmts

end Verif.UnusedLoadWarn
