import Verif.Model.Syntax
import Verif.Model.Quote
/-
Model of the attribute operations of /repo/build/rule.go and of the dictionary operations of /repo/edit/edit.go.

A `*Rule` is a reference to a call; its attribute operations read and write the argument list of the call, so they are
functions on argument lists here. A nil result is `Expr.nil`.
-/
namespace Verif.Edit
open Verif Verif.Syntax

/-- build/rule.go:235-248 `AttrDefn` followed by 253-263 `Attr` -/
def attr (key : Bytes) : List Expr → Expr
  | [] => .nil
  | .assign _ (.ident i) _ _ _ r :: l => if i.name ≠ key then attr key l else r
  | _ :: l => attr key l

/-- build/rule.go:221-231 `AttrKeys` -/
def attrKeys : List Expr → List Bytes
  | [] => []
  | .assign _ (.ident i) _ _ _ _ :: l => i.name :: attrKeys l
  | _ :: l => attrKeys l

/-- build/rule.go:285-289: the assignment to the first definition; `none` if there is none -/
def setFirst (key : Bytes) (v : Expr) : List Expr → Option (List Expr)
  | [] => none
  | .assign c (.ident i) p o lb r :: l =>
    if i.name ≠ key then (setFirst key v l).map (.assign c (.ident i) p o lb r :: ·)
    else some (.assign c (.ident i) p o lb v :: l)
  | x :: l => (setFirst key v l).map (x :: ·)

/-- build/rule.go:284-298 `SetAttr` -/
def setAttr (key : Bytes) (v : Expr) (l : List Expr) : List Expr :=
  match setFirst key v l with
  | some l' => l'
  | none => l ++ [.assign {} (.ident { name := key }) {} b!"=" false v]

/-- build/rule.go:263-279 `DelAttr`: the remaining arguments and the old value -/
def delAttr (key : Bytes) : List Expr → List Expr × Expr
  | [] => ([], .nil)
  | .assign c (.ident i) p o lb r :: l =>
    if i.name ≠ key then (.assign c (.ident i) p o lb r :: (delAttr key l).1, (delAttr key l).2)
    else (l, r)
  | x :: l => (x :: (delAttr key l).1, (delAttr key l).2)

/-- edit/edit.go:962-973: the renaming of the first definition -/
def renameFirst (old new : Bytes) : List Expr → Option (List Expr)
  | [] => none
  | .assign c (.ident i) p o lb r :: l =>
    if i.name ≠ old then (renameFirst old new l).map (.assign c (.ident i) p o lb r :: ·)
    else some (.assign c (.ident { i with name := new }) p o lb r :: l)
  | x :: l => (renameFirst old new l).map (x :: ·)

/-- edit/edit.go:958-975 `RenameAttribute`; `none` is the error result, which changes nothing -/
def renameAttribute (old new : Bytes) (l : List Expr) : Option (List Expr) :=
  if (attr new l).isNil = false then none else renameFirst old new l

/-- edit/edit.go:927-934 `DictionaryGet` on the entries of a dictionary -/
def dictGet (key : Bytes) : List Expr → Expr
  | [] => .nil
  | .keyValue _ (.string k) _ v :: l => if k.value = key then v else dictGet key l
  | _ :: l => dictGet key l

/-- edit/edit.go:910-917: the assignment to the first entry with the key -/
def dictSetFirst (key : Bytes) (v : Expr) : List Expr → Option (List Expr)
  | [] => none
  | .keyValue c (.string k) p w :: l =>
    if k.value = key then some (.keyValue c (.string k) p (if v.isNil then w else v) :: l)
    else (dictSetFirst key v l).map (.keyValue c (.string k) p w :: ·)
  | x :: l => (dictSetFirst key v l).map (x :: ·)

/-- edit/edit.go:909-923 `DictionarySet`: the new entries and the result -/
def dictSet (key : Bytes) (v : Expr) (l : List Expr) : List Expr × Expr :=
  match dictSetFirst key v l with
  | some l' => (l', dictGet key l')
  | none => if v.isNil then (l, .nil) else (l ++ [.keyValue {} (.string { value := key }) {} v], .nil)

/-- edit/edit.go:944-952: the loop of `DictionaryDelete` -/
def dictDelLoop (key : Bytes) : List Expr → List Expr × Expr → List Expr × Expr
  | [], acc => acc
  | .keyValue c (.string k) p v :: l, acc =>
    if k.value = key then dictDelLoop key l (acc.1, .keyValue c (.string k) p v)
    else dictDelLoop key l (acc.1 ++ [.keyValue c (.string k) p v], acc.2)
  | _ :: l, acc => dictDelLoop key l acc

/-- edit/edit.go:938-955 `DictionaryDelete`: the new entries and the result -/
def dictDelete (key : Bytes) (l : List Expr) : List Expr × Expr :=
  let u := Quote.unquote key
  let key := if u.err = false then u.s else key
  dictDelLoop key l ([], .nil)

end Verif.Edit
