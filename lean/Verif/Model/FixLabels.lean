import Verif.Model.Labels
import Verif.Model.SortStrings
import Verif.Model.Numbers
/-
Model of `fixLabels` (/repo/build/rewrite.go:222-349).
-/
namespace Verif.Rewrite
open Verif Verif.Syntax Verif.Walk

/-- rewrite.go:223-252 `joinLabel` -/
def joinLabel : Expr → Expr
  | .binary c (.string s1) p o lb (.string s2) =>
    if o ≠ b!"+" then .binary c (.string s1) p o lb (.string s2)
    else if !hasPrefix s1.value b!"//" || contains s1.value b!" " then .binary c (.string s1) p o lb (.string s2)
    else if contains s2.value b!" " then .binary c (.string s1) p o lb (.string s2)
    else .string { s1 with
      value := s1.value ++ s2.value
      comments := {
        before := c.before ++ s1.comments.before ++ s2.comments.before
        suffix := c.suffix ++ s1.comments.suffix ++ s2.comments.suffix
        after := c.after } }
  | e => e

/-- the regular expression class `\w` (ASCII, as in Go's RE2) (build/rewrite.go:258) -/
def isWord (c : UInt8) : Bool :=
  (48 ≤ c && c ≤ 57) || (65 ≤ c && c ≤ 90) || c == 95 || (97 ≤ c && c ≤ 122)

/-- rewrite.go:258: `([^:]*)(?::([^:]+))?$`: the groups 4 and 5 (an absent group 5 is the empty string, as in Go) -/
def matchTail (r : Bytes) : Option (Bytes × Bytes) :=
  match split2 c!":" r with
  | (a, none) => some (a, [])
  | (a, some b) => if b ≠ [] && !b.contains c!":" then some (a, b) else none

/-- how many bytes of `body` the greedy `(?:.+/)?` tries to take first: up to and including the last slash that has at least
one byte and no newline before it; `none` if there is no such slash. (build/rewrite.go:258) -/
def dirLength (body : Bytes) : Option Nat :=
  let line := body.takeWhile (· != 10)
  let dir := (line.reverse.dropWhile (· != c!"/")).reverse
  if dir.length ≤ 1 then none else some dir.length

/-- rewrite.go:258: `(?:.+/)?([^:]*)(?::([^:]+))?$`: the length of the optional directory, and groups 4 and 5. Shorter
choices for the greedy directory leave a longer tail with at least the same colons, so they cannot succeed when the longest
fails, and neither can the empty choice. -/
def matchBody (body : Bytes) : Option (Bytes × Bytes × Bytes) :=
  let n := (dirLength body).getD 0
  match matchTail (body.drop n) with
  | some (g4, g5) => some (body.take n ++ g4, g4, g5)
  | none => none

/-- groups 1, 3, 4, 5 of `labelRE` (build/rewrite.go:257) -/
structure LabelMatch where
  whole : Bytes
  repo : Bytes
  name : Bytes
  target : Bytes
deriving DecidableEq

/-- rewrite.go:258: the alternative `(?:@(\w+))?//` of the prefix: group 2, group 3, and what follows -/
def matchRepo (s : Bytes) : Option (Bytes × Bytes × Bytes) :=
  if hasPrefix s b!"//" then some (b!"//", [], s.drop 2)
  else match s with
    | 64 :: l =>
      let w := l.takeWhile isWord
      if w ≠ [] && hasPrefix (l.drop w.length) b!"//" then
        some (c!"@" :: w ++ b!"//", w, l.drop (w.length + 2))
      else none
    | _ => none

/-- the match for a chosen prefix (build/rewrite.go:258) -/
def matchWith (pre repo body : Bytes) : Option LabelMatch :=
  match matchBody body with
  | some (d, g4, g5) => some ⟨pre ++ d, repo, g4, g5⟩
  | none => none

/-- rewrite.go:252-258: `labelRE.FindStringSubmatch`; with `StripLabelLeadingSlashes` the second alternative of the prefix is
empty, otherwise it is `//`, which adds nothing. -/
def labelRE (strip : Bool) (s : Bytes) : Option LabelMatch :=
  let first := match matchRepo s with
    | some (pre, repo, body) => matchWith pre repo body
    | none => none
  match first with
  | some m => some m
  | none => if strip then matchWith [] [] s else none

/-- Go `filepath.Dir` on Unix for a clean relative path: everything before the last slash, `.` if there is none.
(Simplification: paths with `.`, `..` or doubled slashes are not cleaned.) -/
def pathDir (p : Bytes) : Bytes :=
  let d := (p.reverse.dropWhile (· != c!"/")).reverse
  if d = [] then b!"." else if d = b!"/" then b!"/" else d.dropLast

/-- rewrite.go:266-270: the leading slashes are stripped -/
def stripLabel (strip : Bool) (dir v : Bytes) : Bytes :=
  if strip && hasPrefix v b!"//" && (dir == b!"." || !hasPrefix v b!"//:") then v.drop 2 else v

/-- rewrite.go:271-283: absolute labels of this package become relative -/
def relativeLabel (strip shorten : Bool) (dir v : Bytes) : Bytes :=
  if !shorten then v
  else
    let this := (if strip then [] else b!"//") ++ dir
    if v = this then c!":" :: pathBase v
    else if hasPrefix v (this ++ b!":") then v.drop this.length
    else v

/-- rewrite.go:285-293: redundant target names -/
def dropTarget (strip : Bool) (v : Bytes) : Bytes :=
  match labelRE strip v with
  | none => v
  | some m =>
    if m.name ≠ [] && m.name == m.target then m.whole
    else if m.repo ≠ [] && m.name == [] && m.repo == m.target then c!"@" :: m.repo
    else v

/-- rewrite.go:260-294: `shortenLabel` on the value of a string; `dir` is `filepath.Dir(f.Path)` -/
def shortenValue (strip shorten : Bool) (dir v : Bytes) : Bytes :=
  dropTarget strip (relativeLabel strip shorten dir (stripLabel strip dir v))

/-- rewrite.go:260-294 `shortenLabel` -/
def shortenLabel (strip shorten : Bool) (dir : Bytes) : Expr → Expr
  | .string s => .string { s with value := shortenValue strip shorten dir s.value }
  | e => e

/-- rewrite.go:301-307: one element of a list or set of labels -/
def fixElement (strip shorten : Bool) (dir : Bytes) (x : Expr) : Expr :=
  if leaveAlone1 x then x else shortenLabel strip shorten dir (joinLabel x)

/-- rewrite.go:299-321 `fixLabelsWithinAContainer` -/
def fixContainer (strip shorten : Bool) (dir : Bytes) : Expr → Expr
  | .list c p l e f => .list c p (l.map (fixElement strip shorten dir)) e f
  | .set c p l e f => .set c p (l.map (fixElement strip shorten dir)) e f
  | e => shortenLabel strip shorten dir (joinLabel e)

/-- build/rule.go:167-188 `Rule.Kind` on the called expression, the names outermost first -/
def kindNames : Expr → Option (List Bytes)
  | .dot _ x _ _ n => (kindNames x).map (· ++ [n])
  | .ident i => some [i.name]
  | _ => none

/-- build/rule.go:167-188 `Rule.Kind`; rewrite.go:354-356 `callName` -/
def callKind (x : Expr) : Bytes :=
  match kindNames x with
  | some l => joinWith c!"." l
  | none => []

/-- The fields of `Rewriter` (rewrite.go:62-72) used by the label rewrite. -/
structure LabelConfig where
  isLabelArg : Bytes → Bool
  labelDenyList : Bytes → Bool
  strip : Bool
  shorten : Bool

/-- rewrite.go:329-346: one argument of a call -/
def fixArg (w : LabelConfig) (dir rule : Bytes) (a : Expr) : Expr :=
  match a with
  | .assign c (.ident i) p o lb r =>
    if leaveAlone1 a then a
    else if !w.isLabelArg i.name || w.labelDenyList (rule ++ b!"." ++ i.name) then a
    else if leaveAlone1 r then a
    else .assign c (.ident i) p o lb (findAndModify (fixContainer w.strip w.shorten dir) (size r) r)
  | a => a

/-- rewrite.go:323-348: the callback -/
def fixCall (w : LabelConfig) (dir : Bytes) (v : Expr) (stk : List Expr) : Expr :=
  match v with
  | .call c x p l e a b =>
    if leaveAlone stk v then v else .call c x p (l.map (fixArg w dir (callKind x))) e a b
  | v => v

/-- rewrite.go:222-349 `fixLabels` -/
def fixLabels (w : LabelConfig) (f : File) : File :=
  match walkMut (fixCall w (pathDir f.path)) f.toExpr with
  | .file c l => { f with comments := c, stmts := l }
  | _ => f

end Verif.Rewrite
