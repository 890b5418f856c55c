import Verif.Model.Walk
import Verif.Model.Labels
import Verif.Model.Bzlenv
/-
Model of /repo/warn/warn_macro.go: which functions are macros (they call a rule, directly or not), and which of them are reported for having no
argument called `name`.

Go maps are association lists, the latest entry first. The order in which Go iterates over the calls of a function is arbitrary: it is the parameter
`ord` (a function is analysed at most once by an analyzer, so one order per function is enough).
The key of `files` in Go is `pkg + ":" + label`, here the pair; the cache of `FileReader` is not modelled, the reader is a function of the pair
(GetFile may return a file with another package and label if both spell the same path; so may the function here).
-/
namespace Verif.Macro
open Verif Verif.Syntax Verif.Walk

/-- warn/warn_macro.go:29 `nativeModule` -/
def nativeModule : Bytes := b!"<native>"

/-- warn/warn_macro.go:31-36 `function` -/
structure Fn where
  pkg : Bytes
  filename : Bytes
  name : Bytes
deriving DecidableEq, Repr

/-- warn/warn_macro.go:42-48 `funCall` -/
structure FunCall where
  fn : Fn
  nameAlias : Bytes
  line : Nat
deriving DecidableEq, Repr

/-- a parsed file with its package and label (`build.File`, the fields used in warn/warn_macro.go:117-166) -/
structure Src where
  pkg : Bytes
  label : Bytes
  stmts : List Expr

/-- warn/warn_macro.go:61-66 `fileData` -/
structure FileData where
  rules : List Bytes := []
  functions : List (Bytes × List FunCall) := []
  aliases : List (Bytes × Fn) := []

/-- warn/warn_macro.go:70-75 `resolveExternal` -/
def resolveExternal (fn : Fn) (ext : List (Bytes × Fn)) : Fn :=
  match ext.lookup fn.name with
  | some g => g
  | none => fn

/-- `funCalls[name] = c` (warn/warn_macro.go:92, 107) -/
def putCall (c : FunCall) : List FunCall → List FunCall
  | [] => [c]
  | d :: l => if d.nameAlias = c.nameAlias then c :: l else d :: putCall c l

/-- warn/warn_macro.go:86-116: the call made by a node, if it is a call of a name or of `native.x` -/
def callOf (pkg filename : Bytes) (ext : List (Bytes × Fn)) : Expr → Option FunCall
  | .call c (.ident n) s l e a b =>
    some ⟨resolveExternal ⟨pkg, filename, n.name⟩ ext, n.name, (Expr.call c (.ident n) s l e a b).startPos.line⟩
  | .call _ (.dot dc (.ident n) d np name) _ _ _ _ _ =>
    if n.name = b!"native" then
      some ⟨⟨[], nativeModule, name⟩, b!"native." ++ name, (Expr.dot dc (.ident n) d np name).startPos.line⟩
    else none
  | _ => none

/-- warn/warn_macro.go:83-118 `getFunCalls` -/
def getFunCalls (d : Expr) (pkg filename : Bytes) (ext : List (Bytes × Fn)) : List FunCall :=
  walk (fun s x _ => match callOf pkg filename ext x with
    | some c => putCall c s
    | none => s) [] d

/-- warn/warn_macro.go:134-136: the symbols of one load -/
def loadSymbols (p t : Bytes) (ext : List (Bytes × Fn)) : List IdentN → List IdentN → List (Bytes × Fn)
  | f :: fs, i :: is => loadSymbols p t ((i.name, ⟨p, t, f.name⟩) :: ext) fs is
  | _, _ => ext

/-- warn/warn_macro.go:126-138: the loaded symbols -/
def externals (pkg : Bytes) (ext : List (Bytes × Fn)) : List Expr → List (Bytes × Fn)
  | [] => ext
  | .load _ _ m f t _ _ :: l =>
    let lab := Labels.parseRelative m.value pkg
    if lab.repository ≠ [] ∨ lab.target = [] then externals pkg ext l
    else externals pkg (loadSymbols lab.package lab.target ext f t) l
  | _ :: l => externals pkg ext l

/-- warn/warn_macro.go:145-176: one statement -/
def analyzeStmt (s : Src) (ext : List (Bytes × Fn)) (r : FileData) : Expr → FileData
  | .assign _ (.ident n) _ _ _ (.ident m) => { r with aliases := (n.name, resolveExternal ⟨s.pkg, s.label, m.name⟩ ext) :: r.aliases }
  | .assign _ (.ident n) _ _ _ (.call _ (.ident m) _ _ _ _ _) => if m.name = b!"rule" then { r with rules := n.name :: r.rules } else r
  | .defS c p n ps b cp fc fm t => { r with functions := (n, getFunCalls (.defS c p n ps b cp fc fm t) s.pkg s.label ext) :: r.functions }
  | _ => r

/-- the loop in warn/warn_macro.go:145-176 -/
def analyzeStmts (s : Src) (ext : List (Bytes × Fn)) (r : FileData) : List Expr → FileData
  | [] => r
  | x :: l => analyzeStmts s ext (analyzeStmt s ext r x) l

/-- warn/warn_macro.go:120-178 `analyzeFile` -/
def analyzeFile : Option Src → FileData
  | none => {}
  | some s => analyzeStmts s (externals s.pkg [] s.stmts) {} s.stmts

/-- warn/warn_macro.go:180-184 `functionReport` -/
structure Report where
  isMacro : Bool := false
  fc : Option FunCall := none

/-- warn/warn_macro.go:186-192 `macroAnalyzer`: the maps -/
structure St where
  files : List ((Bytes × Bytes) × FileData) := []
  cache : List (Fn × Report) := []

/-- the file reader (warn/multifile.go:24-77): `none` if there is none -/
abbrev Reader := Option (Bytes → Bytes → Option Src)

/-- warn/warn_macro.go:201-207: what is known about a file when it is read -/
def readData (rd : Reader) (pkg label : Bytes) : FileData :=
  match rd with
  | none => {}
  | some r => analyzeFile (r pkg label)

/-- warn/warn_macro.go:194-210 `getFileData` -/
def getFileData (rd : Reader) (st : St) (pkg label : Bytes) : FileData × St :=
  match st.files.lookup (pkg, label) with
  | some fd => (fd, st)
  | none =>
    let fd := readData rd pkg label
    (fd, { st with files := ((pkg, label), fd) :: st.files })

/-- the functions of the native module that are not rules (warn/warn_macro.go:229-231) -/
def nativeFunctions : List Bytes := [b!"glob", b!"existing_rule", b!"existing_rules", b!"package_name", b!"repository_name", b!"exports_files"]

/-- warn/warn_macro.go:262-275: calls into files that are known come first -/
def prioritize (st : St) (l : List FunCall) : List FunCall :=
  let known := fun (c : FunCall) => (st.files.lookup (c.fn.pkg, c.fn.filename)).isSome || c.fn.filename = nativeModule
  l.filter known ++ l.filter fun c => !known c

/-- warn/warn_macro.go:277-283: the first call of a macro. `rec` is `IsMacro`. -/
def firstMacro (rec : St → Fn → Option (Report × St)) (st : St) : List FunCall → Option (Option FunCall × St)
  | [] => some (none, st)
  | c :: l => match rec st c.fn with
    | none => none
    | some (r, st) => if r.isMacro then some (some c, st) else firstMacro rec st l

/-- `ma.cache[fn] = report` (warn/warn_macro.go:221, 224) -/
def store (st : St) (fn : Fn) (r : Report) : St := { st with cache := (fn, r) :: st.cache }

/-- warn/warn_macro.go:213-286 `IsMacro`. `none`: the recursion is deeper than the budget. -/
def isMacro (rd : Reader) (ord : Fn → List FunCall → List FunCall) : Nat → St → Fn → Option (Report × St)
  | 0, _, _ => none
  | n + 1, st, fn =>
    match st.cache.lookup fn with
    | some r => some (r, st)
    | none =>
      let st := store st fn {}
      if fn.filename = nativeModule then
        let r : Report := { isMacro := !nativeFunctions.contains fn.name }
        some (r, store st fn r)
      else
        let (fd, st) := getFileData rd st fn.pkg fn.filename
        match fd.aliases.lookup fn.name with
        | some g =>
          match isMacro rd ord n st g with
          | none => none
          | some (q, st) =>
            let r : Report := { isMacro := q.isMacro }
            some (r, store st fn r)
        | none =>
          if fd.rules.contains fn.name then
            let r : Report := { isMacro := true }
            some (r, store st fn r)
          else
            match fd.functions.lookup fn.name with
            | none => some ({}, store st fn {})
            | some calls =>
              match firstMacro (isMacro rd ord n) st (prioritize st (ord fn calls)) with
              | none => none
              | some (none, st) => some ({}, store st fn {})
              | some (some c, st) =>
                let r : Report := { isMacro := true, fc := some c }
                some (r, store st fn r)

/-- build/utils.go:28-48 `GetParamIdent`: the name and the operator -/
def paramIdent : Expr → Option (Bytes × Bytes)
  | .ident n => some (n.name, [])
  | .typedIdent _ n _ => some (n.name, [])
  | .assign _ lhs .. => paramIdent lhs
  | .unary _ _ op x => (paramIdent x).map fun r => (r.1, op)
  | _ => none

/-- warn/warn_macro.go:52-59 `acceptsNameArgument`, with `GetParamName` (build/utils.go:20-26) -/
def acceptsName (ps : List Expr) : Bool :=
  ps.any fun p => match paramIdent p with
    | some (name, op) => name == b!"name" || op == b!"**"
    | none => false

/-- warn/warn_macro.go:305-330: one function of the file. The result: whether it is reported, with the call that makes it a macro. -/
def checkDef (rd : Reader) (ord : Fn → List FunCall → List FunCall) (fuel : Nat) (s : Src) (st : St) (name : Bytes) (ps : List Expr) :
    Option (Option (Bytes × Option FunCall) × St) :=
  if hasPrefix name b!"_" || acceptsName ps then some (none, st)
  else match isMacro rd ord fuel st ⟨s.pkg, s.label, name⟩ with
    | none => none
    | some (r, st) => some (if r.isMacro then some (name, r.fc) else none, st)

/-- the loop in warn/warn_macro.go:299-330: the position of each reported function in the file, its name and the call -/
def checkDefs (rd : Reader) (ord : Fn → List FunCall → List FunCall) (fuel : Nat) (s : Src) : Nat → St → List Expr → Option (List (Nat × Bytes × Option FunCall))
  | _, _, [] => some []
  | i, st, .defS _ _ n ps _ _ _ _ _ :: l =>
    match checkDef rd ord fuel s st n ps with
    | none => none
    | some (r, st) => match checkDefs rd ord fuel s (i + 1) st l with
      | none => none
      | some rest => some ((match r with
        | some q => [(i, q.1, q.2)]
        | none => []) ++ rest)
  | i, st, _ :: l => checkDefs rd ord fuel s (i + 1) st l

/-- warn/warn_macro.go:289-332 `unnamedMacroWarning` -/
def unnamedMacro (rd : Reader) (ord : Fn → List FunCall → List FunCall) (fuel : Nat) (type : FileType) (s : Src) : Option (List (Nat × Bytes × Option FunCall)) :=
  if type ≠ .bzl then some []
  else checkDefs rd ord fuel s 0 { files := [((s.pkg, s.label), analyzeFile (some s))] } s.stmts

end Verif.Macro
