import Verif.Model.Walk
import Verif.Model.Strings
/-
Model of the checks skylark-comment and skylark-docstring of /repo/warn/warn_cosmetic.go and of their fixes.
-/
namespace Verif.Skylark
open Verif Verif.Syntax Verif.Walk

/-- One letter of the regular expression `(?i)skylark` at the beginning of the text: the rest of the text after it. Go folds case as Unicode does:
`s` also matches U+017F (bytes C5 BF), `k` also matches U+212A, the Kelvin sign (bytes E2 84 AA) (warn/warn_cosmetic.go:226). -/
def eatLetter (c : UInt8) : Bytes → Option Bytes
  | b :: r =>
    if b = c ∨ b + 32 = c then some r
    else
      match b, r with
      | 0xC5, 0xBF :: r' => if c = c!"s" then some r' else none
      | 0xE2, 0x84 :: 0xAA :: r' => if c = c!"k" then some r' else none
      | _, _ => none
  | [] => none

/-- the letters of the regular expression, one after the other (warn/warn_cosmetic.go:226) -/
def eat : Bytes → Bytes → Option Bytes
  | [], s => some s
  | c :: cs, s => (eatLetter c s).bind (eat cs)

/-- `FindAllStringIndex(s, -1)` (warn/warn_cosmetic.go:228): the matches from left to right; the search goes on at the end of a match. `pos` is the
offset of `s`, `n` the search budget. -/
def findAllN : Nat → Nat → Bytes → List (Nat × Nat)
  | 0, _, _ => []
  | _ + 1, _, [] => []
  | n + 1, pos, b :: s =>
    match eat b!"skylark" (b :: s) with
    | some r => (pos, pos + ((b :: s).length - r.length)) :: findAllN n (pos + ((b :: s).length - r.length)) r
    | none => findAllN n (pos + 1) s

/-- `FindAllStringIndex(s, -1)` (warn/warn_cosmetic.go:228) -/
def findAll (s : Bytes) : List (Nat × Nat) := findAllN (s.length + 1) 0 s

/-- warn/warn_cosmetic.go:208-217 `skylarkToStarlark` -/
def toStarlark (s : Bytes) : Bytes :=
  if s = b!"SKYLARK" then b!"STARLARK"
  else if hasPrefix s b!"S" then b!"Starlark"
  else b!"starlark"

/-- warn/warn_cosmetic.go:229-234: the match is left alone -/
def leaveAlone (s : Bytes) (r : Nat × Nat) : Bool :=
  (decide (0 < r.1) && s[r.1 - 1]? == some c!"/") || (decide (r.2 < s.length - 1) && s[r.2 + 1]? == some c!"/")

/-- warn/warn_cosmetic.go:228-236: one iteration; `none` is a panic (slice bounds out of range) -/
def step (s : Bytes) (cur : Bytes) (r : Nat × Nat) : Option Bytes :=
  if leaveAlone s r then some cur
  else if r.2 ≤ cur.length then some (cur.take r.1 ++ toStarlark ((cur.drop r.1).take (r.2 - r.1)) ++ cur.drop r.2)
  else none

/-- warn/warn_cosmetic.go:225-238 `replaceSkylark`; `none` is a panic -/
def replaceSkylark (s : Bytes) : Option (Bytes × Bool) :=
  ((findAll s).foldlM (step s) s).map fun t => (t, decide (t ≠ s))

/-! ### comments

The functions below take the function that rewrites the text as an argument (`replaceSkylark`, when it does not panic). -/

/-- warn/warn_cosmetic.go:256-270: one comment -/
def newComment (rw : Bytes → Bytes) (c : Comment) : Comment :=
  if contains c.token b!"disable=skylark-docstring" then c else { c with token := rw c.token }

/-- warn/warn_cosmetic.go:246-271: the comments of a node -/
def newComments (rw : Bytes → Bytes) (c : Comments) : Comments :=
  ⟨c.before.map (newComment rw), c.suffix.map (newComment rw), c.after.map (newComment rw)⟩

/-- warn/warn_cosmetic.go:252-274 `isModified`: whether there is a finding at the node -/
def modified (rw : Bytes → Bytes) (v : Expr) : Bool :=
  (v.comments.before ++ v.comments.suffix ++ v.comments.after).any fun c =>
    !contains c.token b!"disable=skylark-docstring" && decide (rw c.token ≠ c.token)

/-- Where the pointer that `WalkOnce` passes for a slot points to (build/walk.go:111-227): a field of the node, an element of a list of the node
(which a shallow copy of the node shares), or a local variable of `WalkOnce`. -/
inductive Place where
  | field | elem | loc
deriving DecidableEq

/-- build/walk.go:111-227: the places of the slots, in the order of `slots` -/
def places : Expr → List Place
  | .file _ l => l.map fun _ => .elem
  | .lambda _ _ ps b => (ps ++ b).map fun _ => .elem
  | .call _ _ _ l .. => .field :: l.map fun _ => .elem
  | .list _ _ l .. => l.map fun _ => .elem
  | .set _ _ l .. => l.map fun _ => .elem
  | .tuple _ _ _ l .. => l.map fun _ => .elem
  | .dict _ _ l .. => l.map fun _ => .loc
  | .compr _ _ _ _ cl .. => .field :: cl.map fun _ => .loc
  | .load _ _ m f t r fc => (slots (.load {} {} m f t r fc)).map fun _ => .loc
  | .defS _ _ _ ps b .. => (ps ++ b).map fun _ => .elem
  | .ifS _ _ _ t _ f => .field :: (t ++ f).map fun _ => .elem
  | .forS _ _ _ _ b => .field :: .field :: b.map fun _ => .elem
  | e => (slots e).map fun _ => .field

/-- The tree after all replacements `*expr = newExpr` of warn/warn_cosmetic.go:245-283 have been made. `eff` says whether the pointer `expr` points into the tree. If
the node is replaced, the tree has its copy, which shares the lists of the node but not its fields: assignments to fields of the node are lost. (A
load statement has only local places; its parts are never changed.) `n` is the recursion budget. -/
def fixN (rw : Bytes → Bytes) : Nat → Bool → Expr → Expr
  | 0, _, v => v
  | n + 1, eff, v =>
    match v with
    | .nil => .nil
    | .load .. => if eff && modified rw v then v.setComments (newComments rw v.comments) else v
    | v =>
      let rep := eff && modified rw v
      let w := withSlots v (((slots v).zip (places v)).map fun q => fixN rw n (match q.2 with
        | .field => !rep
        | .elem => true
        | .loc => false) q.1)
      if rep then w.setComments (newComments rw v.comments) else w

/-- warn/warn_cosmetic.go:240-286 `skylarkCommentWarning`: the file after the fix. The pointer to the file itself is a local variable
(build/walk.go:42-48). -/
def fixComments (rw : Bytes → Bytes) (f : Expr) : Expr := fixN rw (size f) false f

/-- warn/warn_cosmetic.go:240-286 `skylarkCommentWarning`: the nodes that are reported, in order; `n` is the recursion budget -/
def reportedN (rw : Bytes → Bytes) : Nat → Expr → List Expr
  | 0, _ => []
  | n + 1, v => if v.isNil then [] else (if modified rw v then [v] else []) ++ (slots v).flatMap (reportedN rw n)

/-- warn/warn_cosmetic.go:240-286 `skylarkCommentWarning`: the nodes that are reported, in order -/
def reported (rw : Bytes → Bytes) (f : Expr) : List Expr := reportedN rw (size f) f

/-! ### docstrings -/

/-- warn/warn_docstring.go:33-48 `getDocstring`: the index of the docstring, if the second result is true -/
def docIndex : Nat → List Expr → Option Nat
  | i, .nil :: l => docIndex (i + 1) l
  | i, .commentBlock .. :: l => docIndex (i + 1) l
  | i, .string _ :: _ => some i
  | _, _ => none

/-- warn/warn_cosmetic.go:288-303 `checkSkylarkDocstring`: the statements after the fix, if there is a finding -/
def checkDocstring (rw : Bytes → Bytes) (l : List Expr) : Option (List Expr) :=
  match docIndex 0 l with
  | none => none
  | some i =>
    match l[i]? with
    | some (.string s) => if rw s.value = s.value then none else some (l.set i (.string { s with value := rw s.value }))
    | _ => none

/-- warn/warn_cosmetic.go:305-325 `skylarkDocstringWarning`: the file after the fix -/
def fixDocstrings (rw : Bytes → Bytes) (l : List Expr) : List Expr :=
  let l1 := (checkDocstring rw l).getD l
  l1.map fun
    | .defS c p n ps b q fc fm t => .defS c p n ps ((checkDocstring rw b).getD b) q fc fm t
    | e => e

end Verif.Skylark
