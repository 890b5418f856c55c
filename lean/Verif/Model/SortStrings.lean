import Verif.Model.Sort
import Verif.Model.Strings
import Verif.Model.Walk
/-
Model of the string-list sorting and call-argument sorting of /repo/build/rewrite.go.
-/
namespace Verif.Rewrite
open Verif Verif.Syntax Verif.Walk

/-- build/rewrite.go:160-181 `hasComment` (`text` is in lower case). `nil` has no comments. -/
def hasComment (x : Expr) (text : Bytes) : Bool :=
  let has (l : List Comment) := l.any fun c => contains (toLower c.token) text
  has x.comments.before || has x.comments.after || has x.comments.suffix

/-- rewrite.go:198-200 -/
def leaveAlone1 (x : Expr) : Bool := hasComment x b!"buildifier: leave-alone"
/-- rewrite.go:204-206 -/
def doNotSort (x : Expr) : Bool := hasComment x b!"do not sort"
/-- rewrite.go:210-212 -/
def keepSorted (x : Expr) : Bool := hasComment x b!"keep sorted"
/-- rewrite.go:146-156 `leaveAlone` -/
def leaveAlone (stk : List Expr) (final : Expr) : Bool := stk.any leaveAlone1 || leaveAlone1 final

/-! ### string sort keys -/

/-- rewrite.go:732-738 `stringSortKey` (`x` is the literal itself) -/
structure SortKey where
  phase : Nat
  split : List Bytes
  value : Bytes
  original : Nat
  x : StringN
deriving DecidableEq

/-- rewrite.go:740-758 `makeSortKey`; `strip` is `tables.StripLabelLeadingSlashes`. -/
def makeSortKey (strip : Bool) (index : Nat) (x : StringN) : SortKey where
  phase :=
    if hasPrefix x.value b!":" then 1
    else if hasPrefix x.value b!"//" || (strip && !hasPrefix x.value b!"@") then 2
    else if hasPrefix x.value b!"@" then 3
    else 0
  split := splitAll c!"." (replaceByte c!":" c!"." x.value)
  value := x.value
  original := index
  x := x

/-- rewrite.go:773-780: the loop over the split values and the length comparison; `none` when they agree. -/
def splitCmp : List Bytes → List Bytes → Option Bool
  | [], [] => none
  | [], _ :: _ => some true
  | _ :: _, [] => some false
  | x :: xs, y :: ys => if x ≠ y then some (strLess x y) else splitCmp xs ys

/-- rewrite.go:766-785 `byStringExpr.Less` -/
def keyLess (a b : SortKey) : Bool :=
  if a.phase ≠ b.phase then decide (a.phase < b.phase)
  else match splitCmp a.split b.split with
    | some r => r
    | none =>
      if a.value ≠ b.value then strLess a.value b.value
      else decide (a.original < b.original)

/-- rewrite.go:684-692 `uniq`: drops an element whose value is that of the last kept one. -/
def uniqFrom (last : Bytes) : List SortKey → List SortKey
  | [] => []
  | k :: l => if k.value = last then uniqFrom last l else k :: uniqFrom k.value l

/-- rewrite.go:684-692 `uniq` -/
def uniq : List SortKey → List SortKey
  | [] => []
  | k :: l => k :: uniqFrom k.value l

/-- rewrite.go:695-702 `isUniq` -/
def isUniq : List SortKey → Bool
  | [] => true
  | [_] => true
  | a :: b :: l => a.value != b.value && isUniq (b :: l)

/-- rewrite.go:656-659: the sort keys of a chunk (index relative to the chunk) -/
def mkKeys (strip : Bool) (chunk : List StringN) : List SortKey :=
  chunk.mapIdx fun i x => makeSortKey strip i x

/-- build/syntax.go:76-83 -/
def setBefore (b : List Comment) (x : StringN) : StringN :=
  { x with comments := { x.comments with before := b } }

/-- rewrite.go:661 `chunk[0].x.Comment().Before` -/
def headBefore : List StringN → List Comment
  | [] => []
  | x :: _ => x.comments.before

/-- rewrite.go:656-674: what a chunk is replaced by. `srt` is the sorting algorithm. The whole-line comments before
the chunk's first element are moved to the new first element. -/
def sortChunk (srt : List SortKey → List SortKey) (strip : Bool) (chunk : List StringN) : List StringN :=
  let keys := mkKeys strip chunk
  if isSorted keyLess keys && isUniq keys then chunk
  else
    let cleared := match keys with | [] => [] | k :: ks => { k with x := setBefore [] k.x } :: ks
    match uniq (srt cleared) with
    | [] => []
    | k :: ks => setBefore (headBefore chunk) k.x :: ks.map (·.x)

/-- rewrite.go:651-653: an element that continues a chunk -/
def chunkMember : Expr → Option StringN
  | .string s => if s.comments.before.isEmpty then some s else none
  | _ => none

/-- the longest prefix of elements that continue a chunk, and the rest (build/rewrite.go: the loop of `SortStringList` over a chunk) -/
def spanMembers : List Expr → List StringN × List Expr
  | [] => ([], [])
  | x :: l => match chunkMember x with
    | some s => (s :: (spanMembers l).1, (spanMembers l).2)
    | none => ([], x :: l)

/-- rewrite.go:639-680 `sortStringExprs`, the loop at index `i` of a list whose tail from `i` is the argument. After a
chunk `i..j` has been replaced by a (possibly shorter) one, the loop goes on at index `j` of the NEW list
(`i = j`, rewrite.go:676), so that as many of the following elements as were dropped are skipped. `n` is the recursion budget. -/
def sortLoop (srt : List SortKey → List SortKey) (strip : Bool) : Nat → List Expr → List Expr
  | 0, l => l
  | _, [] => []
  | n + 1, .string s :: l =>
    let sp := spanMembers l
    let chunk := s :: sp.1
    let new := (sortChunk srt strip chunk).map Expr.string ++ sp.2
    new.take chunk.length ++ sortLoop srt strip n (new.drop chunk.length)
  | n + 1, x :: l => x :: sortLoop srt strip n l

/-- rewrite.go:639-680 `sortStringExprs` with sorting algorithm `srt` -/
def sortStringExprsWith (srt : List SortKey → List SortKey) (strip : Bool) (l : List Expr) : List Expr :=
  if l.length < 2 then l else sortLoop srt strip l.length l

/-- rewrite.go:639-680 `sortStringExprs` -/
def sortStringExprs (strip : Bool) (l : List Expr) : List Expr := sortStringExprsWith (sortBy keyLess) strip l

/-! ### deduplication -/

/-- rewrite.go:546-573 `deduplicateStringExprs`: `pending` are the collected comments, `seen` the values seen. -/
def dedupLoop (pending : List Comment) (seen : List Bytes) : List Expr → List Expr
  | [] => []
  | .string s :: l =>
    if s.value ∈ seen then dedupLoop (pending ++ s.comments.before ++ s.comments.after) seen l
    else if pending.length > 0 then
      .string (setBefore (pending ++ s.comments.before) s) :: dedupLoop [] (s.value :: seen) l
    else .string s :: dedupLoop pending (s.value :: seen) l
  | x :: l => x :: dedupLoop pending seen l

/-- rewrite.go:546-573 `deduplicateStringExprs` -/
def dedupStringExprs (l : List Expr) : List Expr := dedupLoop [] [] l

/-- rewrite.go:1213-1231 `hasComments`, first result -/
def hasLineComments (c : Comments) (list : List Expr) (e : EndN) : Bool :=
  !c.before.isEmpty || !c.after.isEmpty || !e.comments.before.isEmpty ||
    list.any fun x => !x.comments.before.isEmpty

/-- rewrite.go:578-604 `SortStringList`, and rewrite.go:534-541 `deduplicateStringList` -/
def sortStringList (strip : Bool) (x : Expr) : Expr :=
  match x with
  | .list c p l e f =>
    if l.length < 2 then x
    else if doNotSort (l.headD .nil) then .list c p (dedupStringExprs l) e f
    else if !(keepSorted x || keepSorted (l.headD .nil)) && hasLineComments c l e then
      .list c p (dedupStringExprs l) e f
    else .list c p (sortStringExprs strip l) e f
  | x => x

/-- rewrite.go:534-541 `deduplicateStringList` -/
def dedupStringList (x : Expr) : Expr :=
  match x with
  | .list c p l e f => .list c p (dedupStringExprs l) e f
  | x => x

/-- rewrite.go:613-637 `findAndModifyStrings` with a callback that replaces or mutates a node. `n` is the recursion
budget. Dict entries of a `select` are `keyValue` nodes (Go: `[]*KeyValueExpr`). -/
def findAndModify (cb : Expr → Expr) : Nat → Expr → Expr
  | 0, x => x
  | n + 1, x =>
    match cb x with
    | .binary c a p o lb b =>
      if o ≠ b!"+" then .binary c a p o lb b
      else .binary c (findAndModify cb n a) p o lb (findAndModify cb n b)
    | .call c f p l e a b =>
      match f, l with
      | .ident i, .dict dc dp dl de df :: rest =>
        if i.name ≠ b!"select" then .call c f p l e a b
        else
          let dl' := dl.map fun kv => match kv with
            | .keyValue kc k kp v => .keyValue kc k kp (findAndModify cb n v)
            | kv => kv
          .call c f p (.dict dc dp dl' de df :: rest) e a b
      | _, _ => .call c f p l e a b
    | y => y

/-! ### call arguments -/

/-- rewrite.go:424-431 `argName` -/
def argName : Expr → Bytes
  | .assign _ (.ident i) .. => i.name
  | _ => []

/-- rewrite.go:435-440 `namedArg` -/
structure NamedArg where
  priority : Int
  name : Bytes
  index : Nat
  expr : Expr

/-- rewrite.go:448-458 `namedArgs.Less` -/
def argLess (p q : NamedArg) : Bool :=
  if p.priority ≠ q.priority then decide (p.priority < q.priority)
  else if p.name ≠ q.name then strLess p.name q.name
  else decide (p.index < q.index)

/-- rewrite.go:401-420 `ruleNamePriority`: `prio` is the `NamePriority` map (`none`: absent, Go's zero value 0). -/
def ruleNamePriority (prio : Bytes → Option Int) (rule arg : Bytes) : Int :=
  match prio (rule ++ b!"." ++ arg) with
  | some v => v
  | none => (prio arg).getD 0

/-- rewrite.go:374-377: length of the tail of named arguments -/
def namedTail (l : List Expr) : List Expr := (l.reverse.takeWhile fun x => argName x != []).reverse

/-- rewrite.go:379-384: the sort records of the tail (index relative to the tail) -/
def mkArgs (prio : Bytes → Option Int) (rule : Bytes) (tail : List Expr) : List NamedArg :=
  tail.mapIdx fun i x => ⟨ruleNamePriority prio rule (argName x), argName x, i, x⟩

/-- rewrite.go:374-394, the argument list of one call, with sorting algorithm `srt` -/
def sortArgsWith (srt : List NamedArg → List NamedArg) (prio : Bytes → Option Int) (rule : Bytes) (l : List Expr) : List Expr :=
  let tail := namedTail l
  let args := mkArgs prio rule tail
  if isSorted argLess args then l
  else l.take (l.length - tail.length) ++ (srt args).map (·.expr)

/-- build/rewrite.go:359-396 -/
def sortArgs := sortArgsWith (sortBy argLess)

end Verif.Rewrite
