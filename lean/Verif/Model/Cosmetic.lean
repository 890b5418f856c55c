import Verif.Model.Walk
import Verif.Model.Sort
import Verif.Model.LoadEdit
/-
Model of /repo/warn/warn_cosmetic.go: the checks package-on-top and unsorted-dict-items and their fixes.

A fix is a list of assignments `*Old = New` to places of the tree (`LinterReplacement`); all findings of one statement list or one dictionary carry
the same assignments, so the model applies them once. The positions and messages of findings are left out.
-/
namespace Verif.Cosmetic
open Verif Verif.Syntax Verif.Walk Verif.Edit

/-! ### package-on-top -/

/-- edit/edit.go:118-128 `ExprToRule(expr, kind)` succeeds -/
def isCallTo (kind : Bytes) : Expr → Bool
  | .call _ (.ident i) .. => i.name == kind
  | _ => false

/-- `stmt.(*build.AssignExpr)` (warn/warn_cosmetic.go:50-52) -/
def isAssign : Expr → Bool
  | .assign .. => true
  | _ => false

/-- warn/warn_cosmetic.go:54-61: statements that may precede the package declaration -/
def mayPrecede (e : Expr) : Bool :=
  (match e with
    | .string _ | .commentBlock .. | .load .. | .nil => true
    | _ => false) || isCallTo b!"licenses" e || isCallTo b!"package_group" e

/-- warn/warn_cosmetic.go:41-73: the loop over the statements. `i` is the index of the next statement, `first` is `firstStmtIndex` (`none`: -1);
returns `firstStmtIndex` and the indices in `misplacedPackages`. -/
def scanPackages : Nat → Option Nat → List Expr → Option Nat × List Nat
  | _, first, [] => (first, [])
  | i, first, e :: l =>
    if isAssign e then (first, [])
    else if mayPrecede e then scanPackages (i + 1) first l
    else if !isCallTo b!"package" e then scanPackages (i + 1) (first.or (some i)) l
    else match first with
      | none => scanPackages (i + 1) first l
      | some _ => let r := scanPackages (i + 1) first l; (r.1, i :: r.2)

/-- warn/warn_cosmetic.go:84-102: the replacements, as pairs of the index that is assigned to and the index that is read. `i` is the loop
variable, `n` the number of statements left, `first` is `firstStmtIndex`. -/
def replacements (misplaced : List Nat) : Nat → Nat → Nat → Nat → List (Nat × Nat)
  | 0, _, _, _ => []
  | n + 1, i, first, offset =>
    if i < first then replacements misplaced n (i + 1) first offset
    else if misplaced.contains i then
      (first, i) :: (if offset - 1 = 0 then [] else replacements misplaced n (i + 1) (first + 1) (offset - 1))
    else (i + offset, i) :: replacements misplaced n (i + 1) first offset

/-- warn/warn.go: applying a `LinterReplacement` `{&f.Stmt[p.1], f.Stmt[p.2]}` (the second was read before any assignment;
warn/warn_cosmetic.go:90, 100) -/
def assignAll (l : List Expr) (rs : List (Nat × Nat)) : List Expr :=
  rs.foldl (fun cur p => cur.set p.1 (l.getD p.2 .nil)) l

/-- warn/warn_cosmetic.go:40-113: the indices of the statements that are reported, and the statements after the fix -/
def packageOnTop (l : List Expr) : List Nat × List Expr :=
  let r := scanPackages 0 none l
  if r.2.length = 0 then ([], l)
  else (r.2, assignAll l (replacements r.2 l.length 0 (r.1.getD 0) r.2.length))

/-- warn/warn_cosmetic.go:34-113 `packageOnTopWarning` -/
def packageOnTopWarning (f : File) : List Nat × File :=
  if f.type = .workspace ∨ f.type = .module then ([], f)
  else ((packageOnTop f.stmts).1, { f with stmts := (packageOnTop f.stmts).2 })

/-! ### unsorted-dict-items -/

/-- warn/warn_cosmetic.go:118-138 `compareItems`, on the values of the keys -/
def compareKeys (key1 key2 : Bytes) : Bool :=
  if hasPrefix key1 b!"_" then hasPrefix key2 b!"_" && strLess key1 key2
  else if hasPrefix key2 b!"_" then true
  else if key1 = b!"//conditions:default" then false
  else if key2 = b!"//conditions:default" then true
  else strLess key1 key2

/-- `item.Key.(*build.StringExpr)` (warn/warn_cosmetic.go:160, 189): the value of the key of an entry of a dictionary -/
def itemKey : Expr → Option Bytes
  | .keyValue _ (.string s) _ _ => some s.value
  | _ => none

/-- warn/warn_cosmetic.go:118-138 `compareItems`; it is only called on entries whose key is a string literal -/
def compareItems (a b : Expr) : Bool := compareKeys ((itemKey a).getD []) ((itemKey b).getD [])

/-- warn/warn_cosmetic.go:157-164 `sortedItems` -/
def stringItems (l : List Expr) : List Expr := l.filter fun e => (itemKey e).isSome

/-- warn/warn_cosmetic.go:171-176 `misplacedItems` -/
def misplacedItems : List Expr → List Expr
  | a :: b :: l => (if compareItems b a then [b] else []) ++ misplacedItems (b :: l)
  | _ => []

/-- warn/warn_cosmetic.go:186-194: the entries of the new dictionary -/
def refill : List Expr → List Expr → List Expr
  | [], _ => []
  | e :: l, s =>
    if (itemKey e).isSome then
      match s with
      | x :: s => x :: refill l s
      | [] => e :: refill l []
    else e :: refill l s

/-- warn/warn_cosmetic.go:157-194: the entries after the fix (`sort.SliceStable` at 185) -/
def sortItems (l : List Expr) : List Expr :=
  if (misplacedItems (stringItems l)).length = 0 then l
  else refill l (sortBy compareItems (stringItems l))

/-- warn/warn_cosmetic.go:143-145 `mustSkipCheck` -/
def mustSkip (e : Expr) : Bool := containsComments e b!"@unsorted-dict-items"

/-- The traversal (warn/warn_cosmetic.go:140-202, build/walk.go:85-108): the entries that are reported, in order. `skip` says whether an ancestor is
marked (152-156); `n` is the recursion budget. -/
def unsortedN : Nat → Bool → Expr → List Expr
  | 0, _, _ => []
  | n + 1, skip, v =>
    if v.isNil then []
    else
      (match v with
        | .dict _ _ l _ _ => if skip || mustSkip v then [] else misplacedItems (stringItems l)
        | _ => []) ++ (slots v).flatMap (unsortedN n (skip || mustSkip v))

/-- warn/warn_cosmetic.go:115-204 `unsortedDictItemsWarning`: the entries that are reported, in order -/
def unsorted (v : Expr) : List Expr := unsortedN (size v) false v

/-- warn/warn_cosmetic.go:182-199: the tree after all replacements. `*expr = &newDict` replaces a dictionary by a copy with the same entries, and
the replacements inside it assign to fields of those entries, so all take effect (a load statement contains no dictionary). `n` is the recursion
budget. -/
def sortDictsN : Nat → Bool → Expr → Expr
  | 0, _, v => v
  | n + 1, skip, v =>
    match v with
    | .nil => .nil
    | .load c p m f t r b => .load c p m f t r b
    | .dict c p l e f =>
      .dict c p ((if skip || mustSkip v then l else sortItems l).map (sortDictsN n (skip || mustSkip v))) e f
    | v => withSlots v ((slots v).map (sortDictsN n (skip || mustSkip v)))

/-- warn/warn_cosmetic.go:115-204 `unsortedDictItemsWarning`: the tree after the fix -/
def sortDicts (v : Expr) : Expr := sortDictsN (size v) false v

end Verif.Cosmetic
