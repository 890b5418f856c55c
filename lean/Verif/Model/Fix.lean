import Verif.Model.ListEdit
import Verif.Model.Rules
import Verif.Model.SortStrings
import Verif.Model.Split
import Verif.Model.Walk
/-
Model of `buildozer fix`: /repo/edit/fix.go. (`movePackageToTop` and `usePlusEqual` are in Model/Rules, `unusedLoads` in Model/LoadEdit.)

A rule is a call node; a fix maps it to the call after the fix and the boolean the Go function returns. Nodes the Go code shares between the old and
the new tree are copied.
-/
namespace Verif.Fix
open Verif Verif.Syntax Verif.Walk Verif.Edit

/-- the arguments of the call (build/rule.go:26-30 `Rule.Call`) -/
def argsOf : Expr → List Expr
  | .call _ _ _ l _ _ _ => l
  | _ => []

/-- the kind of the rule (build/rule.go:167-188 `Kind`) -/
def kind : Expr → Bytes
  | .call _ x _ _ _ _ _ => kindOf x
  | _ => []

/-- the call with other arguments (`r.Call.List = …`, build/rule.go:263-298) -/
def setArgs (r : Expr) (l : List Expr) : Expr :=
  match r with
  | .call c x p _ e a b => .call c x p l e a b
  | r => r

/-- `str.Value = …` for every list of an attribute: the first definition of the attribute gets another value, nothing happens without one
(edit/fix.go:45-52, 83-95) -/
def onAttr (key : Bytes) (f : Expr → Expr) (args : List Expr) : List Expr :=
  if (attr key args).isNil then args else setAttr key (f (attr key args)) args

/-! ### splitOptions -/

/-- Go `strings.Fields`. `cur` is the word being read, in reverse. Simplification: ASCII spaces only, so not U+0085, U+00A0 and the other Unicode
spaces. -/
def fieldsFrom : Bytes → Bytes → List Bytes
  | cur, [] => if cur = [] then [] else [cur.reverse]
  | cur, c :: l =>
    if Buildozer.isSpaceByte c then (if cur = [] then fieldsFrom [] l else cur.reverse :: fieldsFrom [] l)
    else fieldsFrom (c :: cur) l

/-- Go `strings.Fields` (edit/fix.go:67) -/
def fields (s : Bytes) : List Bytes := fieldsFrom [] s

/-- fix.go:65: is this option split? (The test for quotes looks for the two characters `'"` in a row.) -/
def splittable (s : Bytes) : Bool := contains s b!" " && !contains s b!"'\"" && !contains s b!"$(location"

/-- fix.go:67-73: the new elements; the comments go to the first one -/
def pieces (c : Comments) : List Bytes → List Expr
  | [] => []
  | w :: ws => .string { value := w, comments := c } :: ws.map fun w => .string { value := w }

/-- fix.go:59-77: one element of the loop in `splitStrings` -/
def splitElem : Expr → List Expr
  | .string s => if splittable s.value then pieces s.comments (fields s.value) else [.string s]
  | e => [e]

/-- fix.go:65-66: does this element make `splitStrings` return true? -/
def splits : Expr → Bool
  | .string s => splittable s.value
  | _ => false

/-- fix.go:56-80 `splitStrings`: the new list -/
def splitStrings (l : List Expr) : List Expr := l.flatMap splitElem

/-- fix.go:39-54 `splitOptionsWithSpaces` on the arguments of the rule -/
def splitArgs (args : List Expr) : List Expr :=
  [b!"copts", b!"linkopts"].foldl (fun args name => onAttr name (onLists splitStrings) args) args

/-- fix.go:39-54 `splitOptionsWithSpaces` -/
def splitOptions (r : Expr) : Expr × Bool :=
  (setArgs r (splitArgs (argsOf r)),
    [b!"copts", b!"linkopts"].any fun name => (allLists (attr name (argsOf r))).flatten.any splits)

/-! ### shortenLabels -/

/-- fix.go:90-95: one element -/
def shortenElem (pkg : Bytes) : Expr → Expr
  | .string s => .string { s with value := Labels.shorten s.value pkg }
  | e => e

/-- fix.go:92 -/
def shortens (pkg : Bytes) : Expr → Bool
  | .string s => s.value ≠ Labels.shorten s.value pkg
  | _ => false

/-- fix.go:83-101 `shortenLabels`; `labelAttr kind attr` is `ContainsLabels` (edit/types.go:68-77), which looks the attribute up in a generated
table. The state is the arguments and the boolean. -/
def shortenStep (labelAttr : Bytes → Bool) (pkg : Bytes) (s : List Expr × Bool) (key : Bytes) : List Expr × Bool :=
  if labelAttr key then
    (onAttr key (onLists fun l => l.map (shortenElem pkg)) s.1, s.2 || (allLists (attr key s.1)).flatten.any (shortens pkg))
  else s

/-- fix.go:83-101 `shortenLabels` -/
def shortenLabels (containsLabels : Bytes → Bytes → Bool) (pkg : Bytes) (r : Expr) : Expr × Bool :=
  let s := (attrKeys (argsOf r)).foldl (shortenStep (containsLabels (kind r)) pkg) (argsOf r, false)
  (setArgs r s.1, s.2)

/-! ### removeVisibility, removeTestOnly -/

/-- the values of the elements if all are string literals (build/rule.go:346-355) -/
def stringValues : List Expr → Option (List Bytes)
  | [] => some []
  | .string s :: l => (stringValues l).map (s.value :: ·)
  | _ :: _ => none

/-- build/rule.go:341-356 `Strings`; both kinds of empty slice are `[]` -/
def strings : Expr → List Bytes
  | .list _ _ l _ _ => (stringValues l).getD []
  | _ => []

/-- the arguments of the package declaration, if there is one (edit.go:131-138 `ExistingPackageDeclaration`) -/
def packageArgs (stmts : List Expr) : Option (List Expr) :=
  (stmts.find? fun e => Rewrite.isFunctionCall e b!"package").map argsOf

/-- fix.go:104-109 -/
def defaultVisibility (stmts : List Expr) : List Bytes :=
  match packageArgs stmts with
  | none => [b!"//visibility:private"]
  | some a => if (attr b!"default_visibility" a).isNil then [b!"//visibility:private"] else strings (attr b!"default_visibility" a)

/-- fix.go:104-126 `removeVisibility`; `srt` is `sort.Strings` -/
def removeVisibility (srt : List Bytes → List Bytes) (stmts : List Expr) (r : Expr) : Expr × Bool :=
  let v := strings (attr b!"visibility" (argsOf r))
  if v.length = 0 ∨ v.length ≠ (defaultVisibility stmts).length then (r, false)
  else if srt v ≠ srt (defaultVisibility stmts) then (r, false)
  else (setArgs r (delAttr b!"visibility" (argsOf r)).1, true)

/-- build/rule.go:304-313 `AttrLiteral`, on the value -/
def literal : Expr → Bytes
  | .ident i => i.name
  | .literal _ _ t => t
  | _ => []

/-- fix.go:130-141: the default; `none` is the early return -/
def defaultTestOnly (stmts : List Expr) (kind pkg : Bytes) : Option Bool :=
  if hasSuffix kind b!"_test" || kind == b!"test_suite" then some true
  else
    match packageArgs stmts with
    | none => some (hasPrefix pkg b!"javatests/")
    | some a =>
      if (attr b!"default_testonly" a).isNil then some (hasPrefix pkg b!"javatests/")
      else if literal (attr b!"default_testonly" a) = b!"1" then some true
      else if literal (attr b!"default_testonly" a) ≠ b!"0" then none
      else some false

/-- fix.go:129-154 `removeTestOnly` -/
def removeTestOnly (stmts : List Expr) (pkg : Bytes) (r : Expr) : Expr × Bool :=
  match defaultTestOnly stmts (kind r) pkg with
  | none => (r, false)
  | some d =>
    let t := literal (attr b!"testonly" (argsOf r))
    if (d && t == b!"1") || (!d && t == b!"0") then (setArgs r (delAttr b!"testonly" (argsOf r)).1, true) else (r, false)

/-! ### genrules -/

/-- fix.go:156-158 `genruleRenameDepsTools` -/
def renameDepsTools (r : Expr) : Expr × Bool :=
  if kind r = b!"genrule" then
    match renameAttribute b!"deps" b!"tools" (argsOf r) with
    | some l => (setArgs r l, true)
    | none => (r, false)
  else (r, false)

/-- the class `[a-zA-Z0-9:/_.+-]` of fix.go:163 -/
def isLabelChar (c : UInt8) : Bool :=
  (97 ≤ c && c ≤ 122) || (65 ≤ c && c ≤ 90) || (48 ≤ c && c ≤ 57) ||
    c == c!":" || c == c!"/" || c == c!"_" || c == c!"." || c == c!"+" || c == c!"-"

/-- fix.go:163-164: the matches of `[a-zA-Z0-9:/_.+-]+|[^a-zA-Z0-9:/_.+-]+`. (Multi-byte characters are matched by the second alternative, byte
by byte here.) -/
def parts : Bytes → List Bytes
  | [] => []
  | c :: l =>
    match parts l with
    | (d :: w) :: ws => if isLabelChar c = isLabelChar d then (c :: d :: w) :: ws else [c] :: (d :: w) :: ws
    | ws => [c] :: ws

/-- fix.go:167-190: the loop of `explicitHeuristicLabels`; the boolean is `canChange` -/
def explicitLoop (labels : Bytes → Bool) : Bool → List Bytes → List Bytes
  | _, [] => []
  | can, part :: ps =>
    let can := if part = b!"location" ∨ part = b!"locations" then false else can
    let name := if labels part then some part else if labels (c!":" :: part) then some (c!":" :: part) else none
    match name with
    | none => part :: explicitLoop labels can ps
    | some n => if can then (b!"$(location " ++ n ++ b!")") :: explicitLoop labels can ps else part :: explicitLoop labels true ps

/-- fix.go:161-193 `explicitHeuristicLabels` (the unchanged string is also the concatenation of its parts) -/
def explicitLabels (labels : Bytes → Bool) (s : Bytes) : Bytes := (explicitLoop labels true (parts s)).flatten

/-- fix.go:195-207 `addLabels`: the string values in the lists of an attribute -/
def labelsOf (key : Bytes) (args : List Expr) : List Bytes :=
  (allLists (attr key args)).flatten.filterMap fun
    | .string s => some s.value
    | _ => none

/-- edit.go:473-483 `AllStrings`, modified -/
def onStrings (f : Bytes → Bytes) : Expr → Expr
  | .string s => .string { s with value := f s.value }
  | .binary c x p o lb y => if o = b!"+" then .binary c (onStrings f x) p o lb (onStrings f y) else .binary c x p o lb y
  | e => e

/-- edit.go:473-483 `AllStrings` -/
def allStrings : Expr → List Bytes
  | .string s => [s.value]
  | .binary _ x _ o _ y => if o = b!"+" then allStrings x ++ allStrings y else []
  | _ => []

/-- fix.go:212-234 `genruleFixHeuristicLabels` -/
def heuristicLabels (r : Expr) : Expr × Bool :=
  if kind r ≠ b!"genrule" then (r, false)
  else
    let labels := labelsOf b!"tools" (argsOf r) ++ labelsOf b!"srcs" (argsOf r)
    let f := explicitLabels fun s => labels.contains s
    (setArgs r (onAttr b!"cmd" (onStrings f) (argsOf r)), (allStrings (attr b!"cmd" (argsOf r))).any fun s => f s ≠ s)

/-! ### exports_files, glob, varref -/

/-- fix.go:237-243 `sortExportsFiles`; `strip` is `tables.StripLabelLeadingSlashes` -/
def sortExports (strip : Bool) (r : Expr) : Expr × Bool :=
  if kind r = b!"exports_files" then
    match argsOf r with
    | [] => (r, false)
    | a :: l => (setArgs r (Rewrite.sortStringList strip a :: l), true)
  else (r, false)

/-- fix.go:250-264, the callback of `removeVarref` (through edit.go:979-991 `EditFunction`) -/
def varref : Expr → Option Expr
  | .call c (.ident i) _ [.string s] _ _ _ =>
    if i.name = b!"varref" then
      some (.string { s with value := b!"$(" ++ s.value ++ b!")", comments := { s.comments with suffix := s.comments.suffix ++ c.suffix } })
    else none
  | _ => none

/-- `build.Edit` (walk.go:66-71) with a callback that returns a new node or leaves the node; the boolean says whether there was a new node -/
def edit (f : Expr → Option Expr) (r : Expr) : Expr × Bool :=
  let s := editN (fun (fixed : Bool) x _ => match f x with
    | some y => (true, y, true)
    | none => (fixed, x, false)) (size r) false r []
  (s.2.1, s.1)

/-- fix.go:247-264 `removeVarref`. If the rule itself is a call of `varref`, the new value of the string is seen in the file, but the node `build.Edit`
returns is not used. -/
def removeVarref (r : Expr) : Expr × Bool :=
  match varref r with
  | some s => (setArgs r [s], true)
  | none => edit varref r

/-- fix.go:271-278, the callback of `sortGlob`: the call is changed in place -/
def globCall (strip : Bool) : Expr → Option Expr
  | .call c (.ident i) p (a :: l) e x y => if i.name = b!"glob" then some (.call c (.ident i) p (Rewrite.sortStringList strip a :: l) e x y) else none
  | _ => none

/-- fix.go:267-278 `sortGlob` -/
def sortGlob (strip : Bool) (r : Expr) : Expr × Bool := edit (globCall strip) r

/-! ### mergeLiteralLists -/

/-- fix.go:280-296 `evaluateListConcatenation`, when the result is a list -/
def asList : Expr → Option Expr
  | .list c p l e m => some (.list c p l e m)
  | .binary _ x _ o _ y =>
    if o = b!"+" then
      match asList x, asList y with
      | some (.list c p l e m), some (.list _ _ k _ _) => some (.list c p (l ++ k) e m)
      | _, _ => none
    else none
  | _ => none

/-- fix.go:304-308, the callback of `mergeLiteralLists`: `none` if it returns the same node -/
def mergeNode : Expr → Option Expr
  | .binary c x p o lb y => asList (.binary c x p o lb y)
  | _ => none

/-- fix.go:300-308 `mergeLiteralLists`. The size budget of `edit` suffices: the merged list is smaller than the sum it replaces. -/
def mergeLists (r : Expr) : Expr × Bool := edit mergeNode r

/-! ### moveLicenses -/

/-- fix.go:448-450: the argument of a `licenses(x)` statement -/
def licensesArg (name : Bytes) : Expr → Option Expr
  | .call _ (.ident i) _ [x] _ _ _ => if i.name = name then some x else none
  | _ => none

/-- fix.go:455: `AttrDefn(attrname).Comments = …` on the arguments -/
def setDefnComments (key : Bytes) (c : Comments) : List Expr → List Expr
  | [] => []
  | .assign c' (.ident i) p o lb r :: l =>
    if i.name ≠ key then .assign c' (.ident i) p o lb r :: setDefnComments key c l else .assign c (.ident i) p o lb r :: l
  | x :: l => x :: setDefnComments key c l

/-- fix.go:448-458: the effect of one statement on the arguments of the package declaration -/
def moveOne (name : Bytes) (pkgArgs : List Expr) (stmt : Expr) : List Expr :=
  match licensesArg name stmt with
  | none => pkgArgs
  | some x => setDefnComments name stmt.comments (setAttr name x pkgArgs)

/-- fix.go:446-462 `moveToPackage`. The statements are collected from the file as it was at the start; a package declaration that
`PackageDeclaration` inserts is in `f.Stmt` only, which the last line overwrites. An existing declaration is changed in place. -/
def moveToPackage (name : Bytes) (stmts : List Expr) : List Expr × Bool :=
  let kept := stmts.filter fun e => (licensesArg name e).isNone
  let fixed := stmts.any fun e => (licensesArg name e).isSome
  match existingPackage kept with
  | none => (kept, fixed)
  | some i =>
    match kept[i]? with
    | none => (kept, fixed)
    | some d => (kept.set i (setArgs d (stmts.foldl (moveOne name) (argsOf d))), fixed)

/-- fix.go:468-470 `moveLicenses` -/
def moveLicenses (stmts : List Expr) : List Expr × Bool := moveToPackage b!"licenses" stmts

/-! ### FixRule -/

/-- what the fixes take from their surroundings: the tables, the sorting algorithm, the package -/
structure Ctx where
  strip : Bool
  containsLabels : Bytes → Bytes → Bool
  srt : List Bytes → List Bytes
  pkg : Bytes

/-- fix.go:472-497 `AllRuleFixes`: names and functions, in order -/
def ruleFixes (k : Ctx) : List (Bytes × (List Expr → Expr → Expr × Bool)) :=
  [(b!"sortGlob", fun _ r => sortGlob k.strip r),
   (b!"splitOptions", fun _ r => splitOptions r),
   (b!"shortenLabels", fun _ r => shortenLabels k.containsLabels k.pkg r),
   (b!"removeVisibility", fun s r => removeVisibility k.srt s r),
   (b!"removeTestOnly", fun s r => removeTestOnly s k.pkg r),
   (b!"genruleRenameDepsTools", fun _ r => renameDepsTools r),
   (b!"genruleFixHeuristicLabels", fun _ r => heuristicLabels r),
   (b!"sortExportsFiles", fun _ r => sortExports k.strip r),
   (b!"varref", fun _ r => removeVarref r),
   (b!"mergeLiteralLists", fun _ r => mergeLists r)]

/-- fix.go:518-529: the loop of `FixRule` over the fixes, on the rule at index `i` of the file -/
def fixLoop (names : List Bytes) (i : Nat) : List (Bytes × (List Expr → Expr → Expr × Bool)) → List Expr × Bool → List Expr × Bool
  | [], s => s
  | (n, fn) :: fs, s =>
    if names = [] ∨ n ∈ names then
      let r := fn s.1 (s.1.getD i .nil)
      fixLoop names i fs (s.1.set i r.1, r.2 || s.2)
    else fixLoop names i fs s

/-- fix.go:518-533 `FixRule`: the statements afterwards; `none` is the result nil -/
def fixRule (k : Ctx) (names : List Bytes) (i : Nat) (stmts : List Expr) : Option (List Expr) :=
  let s := fixLoop names i (ruleFixes k) (stmts, false)
  if s.2 then some s.1 else none

end Verif.Fix
