import Verif.Model.SortStrings
import Verif.Model.Labels
/-
Model of the load-statement rewrites of /repo/build/rewrite.go:946-1294.
-/
namespace Verif.Rewrite
open Verif Verif.Syntax Verif.Walk

/-- rewrite.go:946-955 `isFunctionCall` -/
def isFunctionCall (e : Expr) (name : Bytes) : Bool :=
  match e with
  | .call _ (.ident i) .. => i.name == name
  | _ => false

/-- rewrite.go:184-194 `isCommentAnywhere` -/
def isCommentAnywhere (f : File) (text : Bytes) : Bool :=
  walkI (fun found x _ => (found || hasComment x text, hasComment x text)) false f.toExpr

/-- build/syntax.go:713-721 -/
def isLoad : Expr → Bool
  | .load .. => true
  | _ => false

/-- rewrite.go:977-984: statements that may stand before the loads (docstrings, comments, `workspace()`, nil) -/
def isHeader (e : Expr) : Bool :=
  match e with
  | .string _ | .commentBlock .. | .nil => true
  | e => isFunctionCall e b!"workspace"

/-- rewrite.go:975-998: index of the first statement that is neither a load nor a header (`none`: -1) -/
def firstStmt (l : List Expr) : Option Nat := l.findIdx? fun e => !isHeader e && !isLoad e

/-- rewrite.go:985-997: the statement at index `i` is a load after the first ordinary statement -/
def misplaced (l : List Expr) (i : Nat) : Bool :=
  match firstStmt l, l[i]? with
  | some m, some e => decide (m < i) && isLoad e
  | _, _ => false

/-- state of the loop rewrite.go:1009-1027 -/
structure MoveState where
  stmts : List Expr
  first : Nat
  offset : Nat
  done : Bool := false

/-- rewrite.go:1009-1027, one iteration (`done`: the `break`) -/
def moveStep (copy : List Expr) (s : MoveState) (i : Nat) : MoveState :=
  if s.done || decide (i < s.first) then s
  else if misplaced copy i then
    { stmts := s.stmts.set s.first (copy.getD i .nil), first := s.first + 1, offset := s.offset - 1,
      done := s.offset - 1 == 0 }
  else { s with stmts := s.stmts.set (i + s.offset) (copy.getD i .nil) }

/-- rewrite.go:975-1027: the statements after `moveLoadOnTop` -/
def moveLoads (l : List Expr) : List Expr :=
  let first := (firstStmt l).getD 0
  let offset := ((List.range l.length).filter (misplaced l)).length
  if offset = 0 then l
  else ((List.range l.length).foldl (moveStep l) { stmts := l, first := first, offset := offset }).stmts

/-- rewrite.go:958-1024 `moveLoadOnTop` -/
def moveLoadOnTop (f : File) : File :=
  if f.type = .workspace then f
  else if isCommentAnywhere f b!"disable=load-on-top" then f
  else { f with stmts := moveLoads f.stmts }

/-- module of a load (build/syntax.go:713-721) -/
def loadModule : Expr → Option Bytes
  | .load _ _ m .. => some m.value
  | _ => none

/-- rewrite.go:1046-1048: append the symbols of a load to another load -/
def appendSyms (fs ts : List IdentN) : Expr → Expr
  | .load c p m f t r fc => .load c p m (f ++ fs) (t ++ ts) r fc
  | e => e

/-- rewrite.go:1031-1052: one iteration; `out` are the statements before the current one. The map `loads` holds the
first load seen of each module. -/
def compressStep (out : List Expr) (stmt : Expr) : List Expr :=
  match stmt with
  | .load _ _ m f t .. =>
    match out.findIdx? fun e => loadModule e == some m.value with
    | none => out ++ [stmt]
    | some i =>
      if hasComment (out.getD i .nil) b!"disable=same-origin-load" || hasComment stmt b!"disable=same-origin-load" then
        out ++ [stmt]
      else out.modify i (appendSyms f t) ++ [.nil]
  | stmt => out ++ [stmt]

/-- rewrite.go:1027-1053 `compressSameOriginLoads` -/
def compressLoads (l : List Expr) : List Expr := l.foldl compressStep []

/-- rewrite.go:1065-1079: the loop over the chunks of `comparePaths`; `none`: no case-insensitive difference found -/
def cmpChunks : List Bytes → List Bytes → Option Bool
  | [], _ => none
  | _ :: _, [] => some false
  | a :: as, b :: bs =>
    if toLower a ≠ toLower b then some (strLess (toLower a) (toLower b)) else cmpChunks as bs

/-- rewrite.go:1057-1081 `comparePaths` -/
def comparePaths (p1 p2 : Bytes) : Bool :=
  if p1 = p2 then false
  else match cmpChunks (splitAll c!"/" p1) (splitAll c!"/" p2) with
    | some r => r
    | none => !strLess p2 p1

/-- rewrite.go:1088-1120 `compareLoadLabels` -/
def compareLoadLabels (l1 l2 : Bytes) : Bool :=
  let e1 := hasPrefix l1 b!"@"
  let e2 := hasPrefix l2 b!"@"
  if e1 ≠ e2 then e1
  else
    let a := Labels.parseRelative l1 [0x7F]
    let b := Labels.parseRelative l2 [0x7F]
    if a.repository ≠ b.repository then strLess a.repository b.repository
    else if (a.package = []) ≠ (b.package = []) then a.package = []
    else if a.package ≠ b.package then comparePaths a.package b.package
    else comparePaths a.target b.target

/-- rewrite.go:1137-1155: group the loads into chunks, separated by statements that are neither loads nor nil -/
def loadChunks : List Expr → List (List Expr)
  | [] => [[]]
  | e :: l =>
    if isLoad e then match loadChunks l with
      | c :: cs => (e :: c) :: cs
      | [] => [[e]]
    else if e.isNil then loadChunks l
    else [] :: loadChunks l

/-- rewrite.go:1171-1178: put the sorted loads back, in order, where there were loads -/
def fillLoads : List Expr → List Expr → List Expr
  | [], _ => []
  | e :: l, ls =>
    if isLoad e then match ls with
      | x :: ls => x :: fillLoads l ls
      | [] => e :: fillLoads l []
    else e :: fillLoads l ls

/-- rewrite.go:1137-1178 with sorting function `srt` for one chunk. (Go's list of chunks has no empty chunks; here there
may be some, which sort to nothing.) -/
def sortLoadsWith (srt : List Expr → List Expr) (l : List Expr) : List Expr :=
  fillLoads l ((loadChunks l).flatMap srt)

/-- the comparison passed to `sort.SliceStable`, rewrite.go:1162-1166 -/
def loadLess (a b : Expr) : Bool :=
  compareLoadLabels ((loadModule a).getD []) ((loadModule b).getD [])

/-- rewrite.go:1124-1179 `sortLoadStatements` -/
def sortLoadStatements (f : File) : File :=
  if isCommentAnywhere f b!"disable=out-of-order-load" then f
  else { f with stmts := sortLoadsWith (sortBy loadLess) f.stmts }

/-! ### load arguments -/

/-- one loaded symbol: original name and local name (build/syntax.go:713-721) -/
abbrev LoadArg := IdentN × IdentN

/-- rewrite.go:1253-1263 `loadArgs.Less` -/
def loadArgLess (a b : LoadArg) : Bool :=
  let ei := a.1.name == a.2.name
  let ej := b.1.name == b.2.name
  if ei ≠ ej then ei else strLess a.2.name b.2.name

/-- rewrite.go:1267-1283 `deduplicate`: `last` is the last kept pair -/
def dedupArgsFrom (last : LoadArg) : List LoadArg → List LoadArg
  | [] => [last]
  | a :: l => if last.2.name = a.2.name then dedupArgsFrom a l else last :: dedupArgsFrom a l

/-- rewrite.go:1267-1283 `deduplicate` -/
def dedupArgs : List LoadArg → List LoadArg
  | [] => []
  | a :: l => dedupArgsFrom a l

/-- rewrite.go:1286-1293 `SortLoadArgs` on the list of pairs, with sorting algorithm `srt` -/
def sortLoadPairs (srt : List LoadArg → List LoadArg) (l : List LoadArg) : List LoadArg := dedupArgs (srt l)

/-- rewrite.go:1286-1293 `SortLoadArgs` (without the `modified` result) -/
def sortLoadArgs (srt : List LoadArg → List LoadArg) : Expr → Expr
  | .load c p m f t r fc =>
    let s := sortLoadPairs srt (f.zip t)
    .load c p m (s.map (·.1)) (s.map (·.2)) r fc
  | e => e

end Verif.Rewrite
