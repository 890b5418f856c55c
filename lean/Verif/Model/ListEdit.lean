import Verif.Model.Attr
import Verif.Model.Labels
import Verif.Model.Sort
/-
Model of the list operations of /repo/edit/edit.go.

Go collects pointers to the lists (and selects) inside an expression and modifies them in place; here the modification is
mapped over the expression. The syntax tree is a tree, so the two agree.
-/
namespace Verif.Edit
open Verif Verif.Syntax

/-- edit.go:393-403 `AllLists`: the elements of the lists -/
def allLists : Expr → List (List Expr)
  | .list _ _ l _ _ => [l]
  | .binary _ x _ o _ y => if o = b!"+" then allLists x ++ allLists y else []
  | _ => []

/-- the lists of `AllLists`, modified (edit.go:393-403) -/
def onLists (f : List Expr → List Expr) : Expr → Expr
  | .list c p l e m => .list c p (f l) e m
  | .binary c x p o lb y => if o = b!"+" then .binary c (onLists f x) p o lb (onLists f y) else .binary c x p o lb y
  | e => e

/-- edit.go:404-418 `AllSelects`: the arguments of the selects -/
def allSelects : Expr → List (List Expr)
  | .binary _ x _ o _ y => if o = b!"+" then allSelects x ++ allSelects y else []
  | .call _ (.ident i) _ l _ _ _ => if i.name = b!"select" then [l] else []
  | _ => []

/-- the argument lists of the selects of `AllSelects`, modified (edit.go:406-418) -/
def onSelects (g : List Expr → List Expr) : Expr → Expr
  | .binary c x p o lb y => if o = b!"+" then .binary c (onSelects g x) p o lb (onSelects g y) else .binary c x p o lb y
  | .call c (.ident i) p l e a b => .call c (.ident i) p (if i.name = b!"select" then g l else l) e a b
  | e => e

/-- the list that is the value of a dictionary entry, modified (edit.go:433-439) -/
def onValue (f : List Expr → List Expr) : Expr → Expr
  | .keyValue c k p (.list c' p' l e m) => .keyValue c k p (.list c' p' (f l) e m)
  | e => e

/-- the lists in the dictionary that is the first argument of a select, modified (edit.go:422-442) -/
def onDict (f : List Expr → List Expr) : List Expr → List Expr
  | .dict c p kvs e m :: rest => .dict c p (kvs.map (onValue f)) e m :: rest
  | l => l

/-- edit.go:434-438: the list of an entry, if its value is a list -/
def entryList : Expr → List (List Expr)
  | .keyValue _ _ _ (.list _ _ l _ _) => [l]
  | _ => []

/-- the lists in the dictionary that is the first argument of a select (edit.go:422-442) -/
def dictLists : List Expr → List (List Expr)
  | .dict _ _ kvs _ _ :: _ => kvs.flatMap entryList
  | _ => []

/-- edit.go:426-432: a select with exactly one argument, a dictionary -/
def plainSelect : List Expr → Bool
  | [.dict ..] => true
  | _ => false

/-- edit.go:422-443 `allListsFromSelects`: one odd select suppresses all of them -/
def allListsFromSelects (e : Expr) : List (List Expr) :=
  if (allSelects e).all plainSelect then (allSelects e).flatMap dictLists else []

/-- edit.go:448-450 `allListsIncludingSelects`, modified -/
def onListsIncludingSelects (f : List Expr → List Expr) (e : Expr) : Expr :=
  if (allSelects e).all plainSelect then onSelects (onDict f) (onLists f e) else onLists f e

/-- edit.go:486-496 `listsFind` -/
def listsFind (lists : List (List Expr)) (item pkg : Bytes) : Option StringN :=
  lists.flatten.findSome? fun
    | .string s => if Labels.equal s.value item pkg then some s else none
    | _ => none

/-- edit.go:501-503 `ListFind` -/
def listFind (e : Expr) (item pkg : Bytes) : Option StringN := listsFind (allLists e) item pkg

/-- edit.go:513-515 `hasComments` -/
def strHasComments (s : StringN) : Bool := !s.comments.before.isEmpty || !s.comments.suffix.isEmpty

/-- edit.go:693-694: is this element removed by `RemoveFromList`? `dwc` is `DeleteWithComments`. -/
def removable (dwc : Bool) (item pkg : Bytes) : Expr → Option StringN
  | .string s => if Labels.equal s.value item pkg && (dwc || !strHasComments s) then some s else none
  | _ => none

/-- edit.go:690-705 `RemoveFromList`: the remaining elements, and `*deleted` -/
def removeFromList (dwc : Bool) (item pkg : Bytes) : List Expr → Option StringN → List Expr × Option StringN
  | [], d => ([], d)
  | x :: l, d =>
    match removable dwc item pkg x with
    | some s => removeFromList dwc item pkg l (some s)
    | none => (x :: (removeFromList dwc item pkg l d).1, (removeFromList dwc item pkg l d).2)

/-- edit.go:672-686 `SelectDelete`: its effect on the expression -/
def selectDelete (dwc : Bool) (item pkg : Bytes) (e : Expr) : Expr :=
  onSelects (onDict fun l => (removeFromList dwc item pkg l none).1) e

/-- edit.go:710-712: quotes around the item are removed -/
def unquoteItem (item : Bytes) : Bytes :=
  let u := Quote.unquote item
  if u.err = false then u.s else item

/-- edit.go:709-721 `ListDelete`: the modified expression and the result -/
def listDelete (dwc : Bool) (item pkg : Bytes) (e : Expr) : Expr × Option StringN :=
  let item := unquoteItem item
  (selectDelete dwc item pkg (onLists (fun l => (removeFromList dwc item pkg l none).1) e),
    (allLists e ++ (allSelects e).flatMap dictLists).foldl (fun d l => (removeFromList dwc item pkg l d).2) none)

/-- edit.go:725-733 `ListAttributeDelete` on the arguments of the rule -/
def listAttributeDelete (dwc : Bool) (name item pkg : Bytes) (args : List Expr) : List Expr × Option StringN :=
  let r := listDelete dwc item pkg (attr name args)
  let args := if (attr name args).isNil then args else setAttr name r.1 args
  match r.2, r.1 with
  | some s, .list _ _ [] _ _ => ((delAttr name args).1, some s)
  | d, _ => (args, d)

/-- edit.go:1229-1234 `ShortenLabel`; `short` is `ShortenLabelsFlag` -/
def shortenLabel (short : Bool) (label pkg : Bytes) : Bytes := if short then Labels.shorten label pkg else label

/-- edit.go:741-746: one element -/
def replaceElem (short : Bool) (old value pkg : Bytes) : Expr → Expr
  | .string s =>
    if Labels.equal s.value old pkg then .string { value := shortenLabel short value pkg, comments := s.comments } else .string s
  | e => e

/-- does `replaceElem` replace? (edit.go:741-746) -/
def replaces (old pkg : Bytes) : Expr → Bool
  | .string s => Labels.equal s.value old pkg
  | _ => false

/-- edit.go:737-750 `ListReplace`: the modified expression and the result -/
def listReplace (short : Bool) (old value pkg : Bytes) (e : Expr) : Expr × Bool :=
  (onListsIncludingSelects (fun l => l.map (replaceElem short old value pkg)) e,
    (allLists e ++ allListsFromSelects e).flatten.any (replaces old pkg))

/-- edit.go:789-805 `isExprLessThan` -/
def exprLess : Expr → Expr → Bool
  | .string s1, .string s2 =>
    let pre1 := hasPrefix s1.value b!"//"
    let pre2 := hasPrefix s2.value b!"//"
    if pre1 ≠ pre2 then pre2 else strLess s1.value s2.value
  | .string _, _ => false
  | _, .string _ => true
  | _, _ => false

/-- edit.go:807-819 `sortedInsert` -/
def sortedInsert (item : Expr) : List Expr → List Expr
  | [] => [item]
  | x :: l => if exprLess item x then item :: x :: l else x :: sortedInsert item l

/-- edit.go:454-468 `FirstList`, modified; `none` if there is no list -/
def onFirstList (f : List Expr → List Expr) : Expr → Option Expr
  | .list c p l e m => some (.list c p (f l) e m)
  | .binary c x p o lb y =>
    if o = b!"+" then
      match onFirstList f x with
      | some x' => some (.binary c x' p o lb y)
      | none => (onFirstList f y).map fun y' => .binary c x p o lb y'
    else none
  | _ => none

/-- edit.go:862-873: insertion into the first list, or into a new one -/
def addTo (item : Expr) (sorted : Bool) (e : Expr) : Expr :=
  match onFirstList (fun l => if sorted then sortedInsert item l else l ++ [item]) e with
  | some e' => e'
  | none => .binary {} e {} b!"+" false (.list {} {} [item] {} false)

/-- edit.go:848-875 `AddValueToList` -/
def addValueToList (dwc : Bool) (old : Expr) (pkg : Bytes) (item : Expr) (sorted : Bool) : Expr :=
  if old.isNil then .list {} {} [item] {} false
  else match item with
    | .string s =>
      if (listFind old s.value pkg).isSome then old
      else addTo (.string s) sorted (selectDelete dwc s.value pkg old)
    | item => addTo item sorted old

/-- edit.go:563-566: an entry whose value is an empty list -/
def emptyEntry : Expr → Bool
  | .keyValue _ _ _ (.list _ _ [] _ _) => true
  | _ => false

/-- edit.go:533-575 `RemoveEmptySelectsAndConcatLists` -/
def simplifyLists : Expr → Expr
  | .binary c x p o lb y =>
    if o = b!"+" then
      let x' := simplifyLists x
      let y' := simplifyLists y
      match x', y' with
      | .list _ _ l _ _, .list _ _ k _ _ => .list {} {} (l ++ k) {} false
      | .list _ _ [] _ _, y' => y'
      | x', .list _ _ [] _ _ => x'
      | x', y' => .binary c x' p o lb y'
    else .binary c x p o lb y
  | .call c (.ident i) p l e a b =>
    if i.name = b!"select" then
      match l with
      | [] => .list {} {} [] {} false
      | .dict c' p' kvs e' m' :: rest =>
        if kvs.all emptyEntry then .list {} {} [] {} false else .call c (.ident i) p (.dict c' p' kvs e' m' :: rest) e a b
      | l => .call c (.ident i) p l e a b
    else .call c (.ident i) p l e a b
  | e => e

/-- edit.go:591-601: is `value` found among the strings of `list2`? `none` if a non-string comes first -/
def findValue (value : Bytes) : List Expr → Option Bool
  | [] => some false
  | .string s :: l => if s.value = value then some true else findValue value l
  | _ :: _ => none

/-- edit.go:588-611: the loop of `ComputeIntersection`, with a non-empty second list -/
def intersect (list2 : List Expr) : List Expr → Option (List Expr)
  | [] => some []
  | .string s :: l =>
    match findValue s.value list2, intersect list2 l with
    | some true, some r => some (.string s :: r)
    | some false, some r => some r
    | _, _ => none
  | _ :: _ => none

/-- edit.go:579-612 `ComputeIntersection`; `none` is nil. A nil second list counts as empty: both give a result without
elements. -/
def computeIntersection (list1 : Option (List Expr)) (list2 : List Expr) : Option (List Expr) :=
  match list1 with
  | none => none
  | some l => if list2.isEmpty then some [] else intersect list2 l

/-- edit.go:631-640: the loop over the remaining entries -/
def intersectEntries : List Expr → Option (List Expr) → Option (List Expr)
  | [], acc => acc
  | .keyValue _ _ _ (.list _ _ l _ _) :: kvs, acc =>
    match computeIntersection acc l with
    | none => none
    | some [] => some []
    | some r => intersectEntries kvs (some r)
  | _ :: _, _ => none

/-- edit.go:615-643 `SelectListsIntersection` on the arguments of the select -/
def selectIntersection : List Expr → Option (List Expr)
  | [.dict _ _ (.keyValue _ _ _ (.list _ _ l _ _) :: kvs) _ _] => intersectEntries kvs (some l)
  | [.dict _ _ (_ :: kvs) _ _] => intersectEntries kvs none
  | _ => none

/-- edit.go:656-667: `ResolveAttr` on the value of the attribute (when there is one) -/
def resolveValue (dwc : Bool) (pkg : Bytes) (e : Expr) : Expr :=
  let toExtract := (allSelects e).flatMap fun l => (selectIntersection l).getD []
  simplifyLists (toExtract.foldl (fun e c => addValueToList dwc e pkg c false) e)

/-- edit.go:648-668 `ResolveAttr` on the arguments of the rule -/
def resolveAttr (dwc : Bool) (name pkg : Bytes) (args : List Expr) : List Expr :=
  if (attr name args).isNil then args else setAttr name (resolveValue dwc pkg (attr name args)) args

end Verif.Edit
