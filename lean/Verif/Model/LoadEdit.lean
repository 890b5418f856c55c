import Verif.Model.Loads
import Verif.Model.Sort
/-
Model of the load operations of /repo/edit/edit.go (`NewLoad` to `ReplaceLoad`) and of `cleanUnusedLoads` of
/repo/edit/fix.go.

Go's maps are lists of pairs without repeated keys; the order in which Go iterates over a map is unspecified, so iteration goes
through a parameter `ord`, about which the theorems assume only that it permutes.
-/
namespace Verif.Edit
open Verif Verif.Syntax Verif.Walk Verif.Rewrite

/-- A map from local names to original names (edit.go:1064, 1089 `symbolsToLoad`). -/
abbrev SymMap := List (Bytes × Bytes)

/-- `m[t] = f` (a Go map, edit.go:1064-1124) -/
def symSet (m : SymMap) (t f : Bytes) : SymMap := m.filter (fun p => p.1 ≠ t) ++ [(t, f)]

/-- edit.go:1064-1067 and 1089-1092: later pairs overwrite earlier ones. `from_` and `to_` have the same length. -/
def symMap (from_ to_ : List Bytes) : SymMap := (to_.zip from_).foldl (fun m p => symSet m p.1 p.2) []

/-- edit.go:1068-1070 and 1101-1103: delete the symbols a load already has -/
def symDelete (m : SymMap) (to_ : List IdentN) : SymMap := to_.foldl (fun m t => m.filter fun p => p.1 ≠ t.name) m

/-- edit.go:1047-1059 `NewLoad` -/
def newLoad (loc : Bytes) (from_ to_ : List Bytes) : Expr :=
  .load {} {} { value := loc } (from_.map fun n => { name := n }) (to_.map fun n => { name := n }) {} true

/-- edit.go:1062-1083 `AppendToLoad`: the load afterwards, and the result -/
def appendToLoad (ord : SymMap → SymMap) (from_ to_ : List Bytes) : Expr → Expr × Bool
  | .load c p m f t r fc =>
    let new := symDelete (symMap from_ to_) t
    if new.isEmpty then (.load c p m f t r fc, false)
    else (.load c p m (f ++ (ord new).map fun q => { name := q.2 }) (t ++ (ord new).map fun q => { name := q.1 }) r fc, true)
  | e => (e, false)

/-- edit.go:1094-1100: a load of the given module -/
def loadsFrom (loc : Bytes) (e : Expr) : Bool := loadModule e == some loc

/-- local names of a load (build/syntax.go:713-721) -/
def loadTo : Expr → List IdentN
  | .load _ _ _ _ t .. => t
  | _ => []

/-- edit.go:1086-1120 `appendLoad`: `none` if there is no load of the module (result false) -/
def appendLoad (ord1 ord2 : SymMap → SymMap) (stmts : List Expr) (loc : Bytes) (from_ to_ : List Bytes) : Option (List Expr) :=
  let new := (stmts.filter (loadsFrom loc)).foldl (fun m e => symDelete m (loadTo e)) (symMap from_ to_)
  let last := stmts.reverse.findIdx? (loadsFrom loc)
  match last with
  | none => none
  | some k =>
    some (stmts.modify (stmts.length - 1 - k) fun e =>
      (appendToLoad ord2 ((ord1 new).map (·.2)) ((ord1 new).map (·.1)) e).1)

/-- edit.go:1138-1161: the number of statements to skip: comments, a docstring in first position, `workspace()` -/
def loadPlace (first : Bool) : List Expr → Nat
  | [] => 0
  | .commentBlock .. :: l => 1 + loadPlace false l
  | .string _ :: l => if first then 1 + loadPlace false l else 0
  | e :: l => if isFunctionCall e b!"workspace" then 1 + loadPlace false l else 0

/-- edit.go:1127-1169 `InsertLoad`; `none` is the panic -/
def insertLoad (ord1 ord2 : SymMap → SymMap) (stmts : List Expr) (loc : Bytes) (from_ to_ : List Bytes) : Option (List Expr) :=
  if from_.length ≠ to_.length then none
  else match appendLoad ord1 ord2 stmts loc from_ to_ with
    | some r => some r
    | none =>
      let k := loadPlace true stmts
      some (stmts.take k ++ [newLoad loc from_ to_] ++ stmts.drop k)

/-- edit.go:1196-1208, one iteration of the loop over `load.To`. `arr` is the backing array (the loop ranges over the
slice as it was before, whose elements the deletions shift), `len` the current length of the slices. The two slices are
kept as a list of pairs. -/
def replaceStep (names : List Bytes) (s : List LoadArg × Nat) (i : Nat) : List LoadArg × Nat :=
  match s.1[i]? with
  | some q =>
    if names.contains q.2.name then
      if i + 1 < s.2 then (s.1.take i ++ (s.1.take s.2).drop (i + 1) ++ s.1.drop (s.2 - 1), s.2 - 1)
      else (s.1, i)
    else s
  | none => s

/-- edit.go:1196-1208 -/
def replaceArgs (names : List Bytes) (l : List LoadArg) : List LoadArg :=
  let s := (List.range l.length).foldl (replaceStep names) (l, l.length)
  s.1.take s.2

/-- edit.go:1187-1213: one statement -/
def replaceStmt (names : List Bytes) : Expr → List Expr
  | .load c p m f t r fc =>
    let l := replaceArgs names (f.zip t)
    if l.isEmpty then [] else [.load c p m (l.map (·.1)) (l.map (·.2)) r fc]
  | e => [e]

/-- edit.go:1176-1214 `ReplaceLoad` -/
def replaceLoad (ord1 ord2 : SymMap → SymMap) (stmts : List Expr) (loc : Bytes) (from_ to_ : List Bytes) : Option (List Expr) :=
  if from_.length ≠ to_.length then none
  else insertLoad ord1 ord2 (stmts.flatMap (replaceStmt to_)) loc from_ to_

/-! ### unused loads -/

/-- edit.go:994-1019 `UsedSymbols` on a node: `n` is the recursion budget. The check `as.LHS == expr` compares pointers, so it
concerns the left-hand side itself. -/
def usedN : Nat → Expr → List Bytes
  | 0, _ => []
  | n + 1, v =>
    match v with
    | .ident i => [i.name]
    | .load .. => []
    | .assign _ (.ident _) _ _ _ y => usedN n y
    | v => (slots v).flatMap (usedN n)

/-- edit.go:994-1019 `UsedSymbols` -/
def usedSymbols (v : Expr) : List Bytes := usedN (size v) v

/-- edit.go:518-529 `ContainsComments` -/
def containsComments (e : Expr) (s : Bytes) : Bool :=
  (e.comments.before ++ e.comments.suffix ++ e.comments.after).any fun c => contains (toLower c.token) (toLower s)

/-- `symbolsToModules`: only the last module of a symbol is ever read, so only it is kept (fix.go:349-406) -/
abbrev ModMap := List (Bytes × Bytes)

/-- fix.go:364-389: the symbols of one load that are kept, and the map afterwards -/
def cleanArgs (used : List Bytes) (loc : Bytes) : ModMap → List LoadArg → List LoadArg × ModMap
  | m, [] => ([], m)
  | m, q :: l =>
    if used.contains q.2.name then
      if m.lookup q.2.name = some loc then cleanArgs used loc m l
      else
        let r := cleanArgs used loc ((q.2.name, loc) :: m) l
        (q :: r.1, r.2)
    else cleanArgs used loc m l

/-- fix.go:400-406: a comment block with the comments of a removed load -/
def leftComments (c : Comments) : List Expr :=
  if c.before.isEmpty && c.after.isEmpty then [] else [.commentBlock { after := c.before ++ c.after } {}]

/-- fix.go:356-408: the loop over the statements; `srt` is `sort.Sort` with the order of the local names -/
def cleanLoop (srt : List LoadArg → List LoadArg) (used : List Bytes) : ModMap → List Expr → List Expr
  | _, [] => []
  | m, .load c p mo f t r fc :: l =>
    if containsComments (.load c p mo f t r fc) b!"@unused" then .load c p mo f t r fc :: cleanLoop srt used m l
    else
      let q := cleanArgs used mo.value m (f.zip t)
      (if q.1.isEmpty then leftComments c
        else [.load c p mo ((srt q.1).map (·.1)) ((srt q.1).map (·.2)) r fc]) ++ cleanLoop srt used q.2 l
  | m, e :: l => e :: cleanLoop srt used m l

/-- fix.go:577-579 `loadArgs.Less` (of package edit) -/
def loadNameLess (a b : LoadArg) : Bool := strLess a.2.name b.2.name

/-- fix.go:349-406 `cleanUnusedLoads` -/
def cleanUnusedLoads (srt : List LoadArg → List LoadArg) (f : File) : File :=
  { f with stmts := cleanLoop srt (usedSymbols f.toExpr) [] f.stmts }

end Verif.Edit
