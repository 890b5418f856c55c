import Verif.Model.Comments
import Verif.Model.Walk
/-
Model of the printer (/repo/build/print.go).

The output buffer is kept in reverse. `bad` records that Go would have panicked (printing a nil expression, a lambda without body,
an `if` without body, or the panic of `IsCorrectEscaping`); the output is meaningless then. The recursion of `expr` is
bounded by a budget; `printFile`/`formatString` start with enough for the tree (theorem `C63_prints`). `p.printf(v.Name)` in the `def` case
is modelled as printing the name (a name with a percent sign cannot be parsed).
-/
namespace Verif.Print
open Verif Verif.Syntax Verif.Parser

/-- build/print.go:78-86 `printer`. `fileType` is constant and passed separately. -/
structure St where
  out : Bytes := []
  comment : List Comment := []
  margin : Nat := 0
  depth : Nat := 0
  level : Nat := 0
  needsNL : Bool := false
  bad : Bool := false
deriving Inhabited, Repr

/-- build/print.go:30 -/
def nestedIndentation : Nat := 4
/-- build/print.go:31 -/
def listIndentation : Nat := 4
/-- build/print.go:32 -/
def defIndentation : Nat := 8

/-- build/print.go:90-97 `formattingMode`: is it `TypeBuild`? -/
def buildMode : FileType → Bool
  | .build | .workspace | .module => true
  | _ => false

/-- build/print.go:100-102 `printf` of a fixed text. -/
def emit (s : Bytes) (st : St) : St := { st with out := s.reverse ++ st.out }

/-- `%*s` in build/print.go:126 -/
def spaces (n : Nat) : Bytes := List.replicate n 32

/-- build/print.go:105-112 `indent`. -/
def indent (st : St) : Nat := (st.out.takeWhile (· != 10)).length

/-- build/print.go:173-181 `trim`. -/
def trim (st : St) : St := { st with out := st.out.dropWhile (· == 32) }

/-- `strings.TrimSpace(com.Token)` (build/print.go:128) -/
def comText (c : Comment) : Bytes := Buildozer.trimSpace c.token

/-- build/print.go:123-129: the pending comments; `first`: no comment has been printed yet. -/
def flushComments (margin : Nat) : Bool → List Comment → St → St
  | _, [], st => st
  | first, c :: l, st =>
    let st := if first then st else emit (10 :: spaces margin) (trim st)
    flushComments margin false l (emit (comText c) st)

/-- build/print.go:119-135 `newline`. -/
def newline (st : St) : St :=
  let st := { st with needsNL := false }
  let st := if st.comment.isEmpty then st
    else { flushComments st.margin true st.comment (emit b!"  " st) with comment := [] }
  emit (10 :: spaces st.margin) (trim st)

/-- build/print.go:148-150 `softNewline`. -/
def softNewline (st : St) : St := { st with needsNL := true }

/-- build/print.go:153-157 `newlineIfNeeded`. -/
def newlineIfNeeded (st : St) : St := if st.needsNL then newline st else st

/-- build/print.go:161-170 `breakline`. -/
def breakline (st : St) : St :=
  if st.depth = 0 then emit (b!" \\\n" ++ spaces st.margin) st else newline st

/-! ## Statements -/

/-- build/print.go:298-301 -/
def isLoad : Expr → Bool
  | .load .. => true
  | _ => false

/-- build/print.go:253-295 -/
def isDef : Expr → Bool
  | .defS .. => true
  | _ => false

/-- build/print.go:314-323, 325-334, 455-462: the name of the called identifier -/
def callName : Expr → Option Bytes
  | .call _ (.ident n) .. => some n.name
  | _ => none

/-- build/print.go:314-323 -/
def isBazelDep (x : Expr) : Bool := callName x == some b!"bazel_dep"
/-- build/print.go:325-334 -/
def isUseRepoOrUseExtension (x : Expr) : Bool := callName x == some b!"use_repo" || callName x == some b!"use_extension"
/-- build/print.go:455-462 -/
def isInclude (x : Expr) : Bool := callName x == some b!"include"

/-- build/print.go:336-346 `isModuleOverride`, tables/tables.go:260-266. -/
def isModuleOverride (x : Expr) : Bool :=
  match callName x with
  | none => false
  | some n => n == b!"archive_override" || n == b!"git_override" || n == b!"local_path_override" ||
      n == b!"multiple_version_override" || n == b!"single_version_override"

/-- build/print.go:361-376 `getKeywordArgument`. -/
def keywordArg (param : Bytes) : List Expr → Option Expr
  | [] => none
  | .assign _ (.ident n) _ _ _ rhs :: l => if n.name = param then some rhs else keywordArg param l
  | _ :: l => keywordArg param l

/-- build/syntax.go `CallExpr.List` -/
def callList : Expr → List Expr
  | .call _ _ _ l .. => l
  | _ => []

/-- build/print.go:348-359 `getKeywordBoolArgument` with default false, for "dev_dependency". -/
def isDevDep (x : Expr) : Bool :=
  match keywordArg b!"dev_dependency" (callList x) with
  | none => false
  | some (.ident n) => n.name == b!"True"
  | some _ => true

/-- build/print.go:305-312 `areBazelDepsOfSameType`. -/
def areBazelDepsOfSameType (x y : Expr) : Bool := isBazelDep x && isBazelDep y && (isDevDep x == isDevDep y)

/-- the value of a string argument (build/print.go:361-376) -/
def keywordString (param : Bytes) (x : Expr) : Option Bytes :=
  match keywordArg param (callList x) with
  | some (.string n) => some n.value
  | _ => none

/-- build/print.go:378-391 `isBazelDepWithOverride`. -/
def isBazelDepWithOverride (x y : Expr) : Bool :=
  isBazelDep x && isModuleOverride y &&
    (match keywordString b!"name" x, keywordString b!"module_name" y with
      | some a, some b => a == b
      | _, _ => false)

/-- build/print.go:410-453 `usedModuleExtensionProxy`. -/
def usedProxy : Expr → Bytes × Bool
  | .call _ (.ident n) _ l .. =>
    if n.name = b!"use_repo" then
      match l with
      | .ident m :: _ => (m.name, true)
      | _ => ([], true)
    else ([], false)
  | .call _ (.dot _ (.ident n) ..) .. => (n.name, false)
  | .assign _ (.ident a) _ _ _ (.call _ (.ident n) ..) => if n.name = b!"use_extension" then (a.name, false) else ([], false)
  | _ => ([], false)

/-- build/print.go:393-408 `useSameModuleExtensionProxy`. -/
def useSameProxy (x y : Expr) : Bool :=
  let (ex, ux) := usedProxy x
  let (ey, uy) := usedProxy y
  !ex.isEmpty && ex == ey && (!ux || uy)

/-- build/print.go:253-295 `compactStmt`. -/
def compactStmt (ft : FileType) (level : Nat) (s1 s2 : Expr) : Bool :=
  if !s2.comments.before.isEmpty || !s1.comments.after.isEmpty then false
  else if isLoad s1 && isLoad s2 then true
  else if isLoad s1 || isLoad s2 then false
  else if ft = .module && areBazelDepsOfSameType s1 s2 then true
  else if ft = .module && isBazelDepWithOverride s1 s2 then true
  else if ft = .module && useSameProxy s1 s2 then true
  else if ft = .module && isInclude s1 && isInclude s2 then true
  else if isCommentBlock s1 || isCommentBlock s2 then false
  else if buildMode ft && level = 0 then false
  else if isDef s1 || isDef s2 then false
  else s2.startPos.line ≤ s1.endPos.line + 1

/-- build/print.go:231-235: the After comments of a statement. -/
def afterComments : List Comment → St → St
  | [], st => st
  | c :: l, st => afterComments l (softNewline (emit (comText c) (newlineIfNeeded st)))

/-- The printer of an expression, as the functions below use it: expression, outer precedence, state. (build/print.go:559-943) -/
abbrev Pr := Expr → Nat → St → St

/-- build/print.go:222-246: the loop of `statements`; nil statements have been removed. -/
def stmtLoop (ft : FileType) (pr : Pr) : List Expr → St → St
  | [], st => st
  | s :: l, st =>
    let st := pr s 0 st
    let st := if isCommentBlock s then st else softNewline st
    let st := afterComments s.comments.after st
    match l with
    | [] => st
    | s2 :: l' =>
      let st := newline st
      let st := if compactStmt ft st.level s s2 then st else newline st
      stmtLoop ft pr (s2 :: l') st

/-- build/print.go:211-247 `statements`. -/
def statements (ft : FileType) (pr : Pr) (l : List Expr) (st : St) : St := stmtLoop ft pr (l.filter (fun x => !x.isNil)) st

/-- build/print.go:200-209 `nestedStatements`. -/
def nestedStatements (ft : FileType) (pr : Pr) (l : List Expr) (st : St) : St :=
  let st := newline { st with margin := st.margin + nestedIndentation, level := st.level + 1 }
  let st := statements ft pr l st
  { st with margin := st.margin - nestedIndentation, level := st.level - 1 }

/-! ## Expressions -/

/-- build/print.go:511-527: precedences -/
def precAssign : Nat := 1
/-- build/print.go:514 -/
def precColon : Nat := 2
/-- build/print.go:515 -/
def precIfElse : Nat := 3
/-- build/print.go:525 -/
def precUnary : Nat := 13
/-- build/print.go:526 -/
def precSuffix : Nat := 14

/-- build/print.go:530-552 `opPrec` (0 for an operator that is not in the map). -/
def opPrec (op : Bytes) : Nat :=
  if op = b!"or" then 4 else if op = b!"and" then 5
  else if op = b!"in" ∨ op = b!"not in" ∨ op = b!"<" ∨ op = b!">" ∨ op = b!"==" ∨ op = b!"!=" ∨ op = b!"<=" ∨ op = b!">=" then 6
  else if op = b!"|" then 7 else if op = b!"^" then 8 else if op = b!"&" then 9
  else if op = b!"<<" ∨ op = b!">>" then 10
  else if op = b!"+" ∨ op = b!"-" then 11
  else if op = b!"*" ∨ op = b!"/" ∨ op = b!"//" ∨ op = b!"%" then 12
  else 0

/-- build/print.go:476-484 `isDifferentLines`. -/
def differentLines (p q : Pos) : Bool := p.line != 0 && q.line != 0 && p.line != q.line

/-- build/print.go:945-960 `seqMode` -/
inductive Mode where
  | call | list | tuple | paren | dict | seq | def_ | load
deriving DecidableEq, Repr

/-- build/print.go:995-1005: the loop over the elements: `none` if two lines differ, else the last end position and whether all
positions are new. -/
def samelines : Pos → Bool → List Expr → Option (Pos × Bool)
  | prev, new, [] => some (prev, new)
  | prev, new, x :: l =>
    if differentLines x.startPos prev then none
    else samelines (if x.endPos.line ≠ 0 then x.endPos else prev) (new && x.startPos.line == 0) l

/-- build/print.go:963-1026 `useCompactMode`; `end_` is `none` for a nil `End`. -/
def useCompact (ft : FileType) (level : Nat) (start : Pos) (l : List Expr) (end_ : Option EndN) (mode : Mode) (fc fm : Bool) : Bool :=
  if l.any (fun x => !x.comments.before.isEmpty || (!x.comments.suffix.isEmpty && mode != .def_)) then false
  else if (match end_ with | some e => !e.comments.before.isEmpty | none => false) then false
  else if mode = .seq then true
  else if mode = .call ∧ l = [] ∧ fm = false then true
  else if (level ≠ 0 ∨ buildMode ft = false ∨ mode = .def_) ∧ mode ≠ .load then
    match samelines start (start.line == 0) l with
    | none => false
    | some (prev, new) =>
      match end_ with
      | some e => if differentLines prev e.pos then false else if new && e.pos.line == 0 then !fm else true
      | none => if new then !fm else true
  else if fm then false
  else if fc then true
  else l.length ≤ 1

/-- build/print.go:1108-1124 `needsTrailingComma`. -/
def needsTrailingComma (mode : Mode) (v : Expr) : Bool :=
  match mode with
  | .def_ | .paren => false
  | .call => match v with
    | .unary _ _ op _ => !(op == b!"*" || op == b!"**")
    | _ => true
  | _ => true

/-- build/print.go:1056-1061: the elements in compact mode; `first`: no element has been printed. -/
def compactElems (pr : Pr) : Bool → List Expr → St → St
  | _, [], st => st
  | first, x :: l, st => compactElems pr false l (pr x 0 (if first then st else emit b!", " st))

/-- build/print.go:1075-1093: the elements in multi-line mode. -/
def multiElems (pr : Pr) (mode : Mode) : Bool → List Expr → St → St
  | _, [], st => st
  | first, x :: l, st =>
    let st := if first && !st.comment.isEmpty then emit (10 :: spaces (st.margin - 2)) st else st
    let st := pr x 0 (newline st)
    let st := if !l.isEmpty || needsTrailingComma mode x then emit b!"," st else st
    multiElems pr mode false l st

/-- build/print.go:1095-1100, 1171-1174: the comments before the closing bracket. -/
def endComments : List Comment → St → St
  | [], st => st
  | c :: l, st => endComments l (emit (comText c) (newline st))

/-- build/print.go:1034-1106 `seq`; `o`, `c` are the brackets. -/
def seq (ft : FileType) (pr : Pr) (o c : Bytes) (start : Pos) (list : List Expr) (end_ : Option EndN) (mode : Mode) (fc fm : Bool) (st : St) : St :=
  let args := list.filter (fun x => !x.isNil)
  let st := if mode = .seq then st else emit o st
  let st := { st with depth := st.depth + 1 }
  let st :=
    if useCompact ft st.level start args end_ mode fc fm then
      let st := compactElems pr true args st
      if args.length = 1 ∧ mode = .tuple then emit b!"," st else st
    else
      let ind := if mode = .def_ then defIndentation else listIndentation
      let st := { st with margin := st.margin + ind }
      let st := multiElems pr mode true args st
      let st := match end_ with
        | some e => endComments e.comments.before st
        | none => st
      let st := { st with margin := st.margin - ind }
      if mode = .def_ then st else newline st
  let st := { st with depth := st.depth - 1 }
  if mode = .seq then st else emit c st

/-- build/print.go:1165-1168: the clauses of a comprehension. -/
def clauseElems (pr : Pr) (multi : Bool) : List Expr → St → St
  | [], st => st
  | x :: l, st => clauseElems pr multi l (pr x 0 (if multi then breakline st else emit b!" " st))

/-- build/print.go:1138-1181 `listFor`. -/
def listFor (pr : Pr) (curly : Bool) (body : Expr) (clauses : List Expr) (fm : Bool) (e : EndN) (st : St) : St :=
  let multi := fm || !e.comments.before.isEmpty
  let st := emit (if curly then b!"{" else b!"[") { st with depth := st.depth + 1 }
  let st := if multi then newline { st with margin := st.margin + listIndentation } else st
  let st := pr body 0 st
  let st := clauseElems pr multi clauses st
  let st :=
    if multi then
      let st := endComments e.comments.before st
      newline { st with margin := st.margin - listIndentation }
    else st
  let st := emit (if curly then b!"}" else b!"]") st
  { st with depth := st.depth - 1 }

/-- build/syntax.go:184-192 `Ident.asString`. -/
def identString (n : IdentN) : StringN := { comments := n.comments, start := n.namePos, value := n.name, endPos := n.namePos.add n.name }

/-- build/print.go:797-817: the arguments of a load statement. -/
def loadArgs : List IdentN → List IdentN → List Expr
  | f :: fs, t :: ts =>
    (if f.name = t.name then .string { identString f with comments := { f.comments with before := t.comments.before } }
     else .assign {} (.ident t) {} b!"=" false (.string (identString f))) :: loadArgs fs ts
  | _, _ => []

/-- build/print.go:597-603 and 935-938: `addParen(prec)` and the closing parenthesis around what `body` prints. -/
def withParen (prec outer : Nat) (body : St → St) (st : St) : St :=
  if prec < outer then
    let st := body { emit b!"(" st with depth := st.depth + 1 }
    emit b!")" { st with depth := st.depth - 1 }
  else body st

/-- build/print.go:721-727: the parameters of a lambda. -/
def lambdaParams (pr : Pr) : Bool → List Expr → St → St
  | _, [], st => st
  | first, x :: l, st =>
    let st := if first then st else emit b!"," st
    lambdaParams pr false l (pr x 0 (emit b!" " st))

/-- build/print.go:876-923: the `if` case; the budget bounds the number of `elif` branches. -/
def ifChain (ft : FileType) (pr : Pr) : Nat → Bool → Bool → Expr → List Expr → EndN → List Expr → St → St
  | 0, _, _, _, _, _, _, st => { st with bad := true }
  | f + 1, isFirst, needsEmpty, cond, tr, ep, fa, st =>
    let st := newlineIfNeeded st
    let st := if isFirst then st else emit b!"el" (if needsEmpty then newline st else st)
    let st := pr cond 0 (emit b!"if " st)
    let st := nestedStatements ft pr tr (emit b!":" st)
    let st := if tr.isEmpty then { st with bad := true } else st
    let needsEmpty := decide (ep.pos.line > (endPosLast tr).line + 1)
    let elseBlock (st : St) : St :=
      if fa.isEmpty then st
      else
        let st := newlineIfNeeded st
        let st := emit b!"else:" (if needsEmpty then newline st else st)
        nestedStatements ft pr fa { st with comment := st.comment ++ ep.comments.suffix }
    match fa with
    | [.ifS c2 _ co2 tr2 ep2 fa2] =>
      if ep.comments.suffix.isEmpty && c2.before.isEmpty then ifChain ft pr f false needsEmpty co2 tr2 ep2 fa2 st
      else elseBlock st
    | _ => elseBlock st

/-- build/print.go:574-587: line comments before a node. -/
def beforeComments (l : List Comment) (st : St) : St :=
  if l.isEmpty then st
  else
    let st := trim st
    let st := if indent st > 0 then emit b!"\n" st else st
    let st := emit (spaces st.margin) st
    l.foldl (fun st c => newline (emit (comText c) st)) st

/-- build/print.go:605-932: the body of `expr`, with the parentheses; `pr` prints subexpressions, `f` bounds `elif` chains. -/
def exprBody (ft : FileType) (pr : Pr) (f : Nat) (v : Expr) (outer : Nat) (st : St) : St :=
  match v with
  | .nil => { st with bad := true }
  | .file .. => { st with bad := true }
  | .commentBlock .. => st
  | .literal _ _ t => emit t st
  | .ident n => emit n.name st
  | .typedIdent _ i t => pr t 0 (emit b!": " (pr (.ident i) 0 st))
  | .branch _ t _ => emit t st
  | .string n =>
    match Quote.printString n.token n.value n.triple with
    | some s => emit s st
    | none => { st with bad := true }
  | .dot _ x _ np name =>
    withParen precSuffix outer (fun st =>
      let st := pr x precSuffix st
      if differentLines np x.endPos then
        let st := emit (b!"." ++ name) (breakline { st with margin := st.margin + listIndentation })
        { st with margin := st.margin - listIndentation }
      else emit (b!"." ++ name) st) st
  | .index _ x _ y _ => withParen precSuffix outer (fun st => emit b!"]" (pr y 0 (emit b!"[" (pr x precSuffix st)))) st
  | .keyValue _ k _ v => pr v 0 (emit b!": " (pr k 0 st))
  | .slice _ x _ fr _ to _c2 step _ =>
    withParen precSuffix outer (fun st =>
      let st := emit b!"[" (pr x precSuffix st)
      let st := if fr.isNil then st else pr fr 0 st
      let st := emit b!":" st
      let st := if to.isNil then st else pr to 0 st
      let st := if _c2.byte ≠ 0 then
          let st := emit b!":" st
          if step.isNil then st else pr step 0 st
        else st
      emit b!"]" st) st
  | .unary _ _ op x =>
    withParen precUnary outer (fun st =>
      let st := if op = b!"not" then emit b!"not " st else emit op st
      if x.isNil then st else pr x precSuffix st) st
  | .lambda _ _ ps b =>
    withParen precColon outer (fun st =>
      let st := emit b!": " (lambdaParams pr true ps (emit b!"lambda" st))
      match b with
      | x :: _ => pr x 0 st
      | [] => { st with bad := true }) st
  | .binary _ x _ op lb y =>
    let prec := opPrec op
    withParen prec outer (fun st =>
      let m := st.margin
      let st := if lb then { st with margin := indent st } else st
      let st := emit (b!" " ++ op) (pr x prec st)
      let st := if lb then breakline st else emit b!" " st
      { pr y (prec + 1) st with margin := m }) st
  | .assign _ x _ op lb y =>
    withParen precAssign outer (fun st =>
      let m := st.margin
      let st := if lb then { st with margin := indent st + listIndentation } else st
      let st := emit (b!" " ++ op) (pr x precAssign st)
      let st := if lb then breakline st else emit b!" " st
      { pr y (precAssign + 1) st with margin := m }) st
  | .paren _ s x e fm => seq ft pr b!"(" b!")" s [x] (some e) .paren false fm st
  | .call c x ls l e fc fm =>
    let fc := if ft = .module && (isBazelDep (.call c x ls l e fc fm) || isUseRepoOrUseExtension (.call c x ls l e fc fm)) then
        x.startPos.line == e.endPos.line
      else fc
    withParen precSuffix outer (fun st => seq ft pr b!"(" b!")" ls l (some e) .call fc fm (pr x precSuffix st)) st
  | .load _ lp m fs ts r fc =>
    withParen precSuffix outer (fun st =>
      seq ft pr b!"(" b!")" lp (.string m :: loadArgs fs ts) (some r) .load fc false (emit b!"load" st)) st
  | .list _ s l e fm => seq ft pr b!"[" b!"]" s l (some e) .list false fm st
  | .set _ s l e fm => seq ft pr b!"{" b!"}" s l (some e) .list false fm st
  | .tuple _ nb s l e fc fm => seq ft pr b!"(" b!")" s l (some e) (if nb then .seq else .tuple) fc fm st
  | .dict _ s l e fm => seq ft pr b!"{" b!"}" s l (some e) .dict false fm st
  | .compr _ cu _ b cl fm e => listFor pr cu b cl fm e st
  | .cond _ t _ te _ el =>
    withParen precSuffix outer (fun st =>
      pr el precIfElse (emit b!" else " (pr te precIfElse (emit b!" if " (pr t precIfElse st))))) st
  | .returnS _ _ r =>
    let st := emit b!"return" st
    if r.isNil then st else pr r 0 (emit b!" " st)
  | .defS _ sp name ps body _ fc fm t =>
    let st := seq ft pr b!"(" b!")" sp ps none .def_ fc fm (emit name (emit b!"def " st))
    let st := if t.isNil then st else pr t 0 (emit b!" -> " st)
    nestedStatements ft pr body (emit b!":" st)
  | .forS _ _ vs x body =>
    nestedStatements ft pr body (emit b!":" (pr x 0 (emit b!" in " (pr vs 0 (emit b!"for " st)))))
  | .ifS _ _ co t ep fa => ifChain ft pr f true false co t ep fa st
  | .forClause _ _ vs _ x => pr x 0 (emit b!" in " (pr vs 0 (emit b!"for " st)))
  | .ifClause _ _ x => pr x 0 (emit b!"if " st)

/-- build/print.go:559-943 `expr`, with a recursion budget. -/
def expr (ft : FileType) : Nat → Pr
  | 0 => fun _ _ st => { st with bad := true }
  | f + 1 => fun v outer st =>
    let st := beforeComments v.comments.before (newlineIfNeeded st)
    let st := exprBody ft (expr ft f) f v outer st
    { st with comment := st.comment ++ v.comments.suffix }

/-- build/print.go:185-188, 192-195: comments of the file. -/
def fileComments : List Comment → St → St
  | [], st => st
  | c :: l, st => fileComments l (newline (emit (comText c) st))

/-- Enough recursion for a tree (no counterpart in Go). -/
def budget (l : List Expr) : Nat := Walk.sizeL l + 4

/-- build/print.go:184-198 `file`. -/
def file (f : File) (st : St) : St :=
  let st := fileComments f.comments.before st
  let st := statements f.type (expr f.type (budget f.stmts)) f.stmts st
  let st := fileComments f.comments.after st
  newlineIfNeeded st

/-- build/print.go:37-41 `FormatWithoutRewriting`; `none`: Go panics. -/
def format (f : File) : Option Bytes :=
  let st := file f {}
  if st.bad then none else some st.out.reverse

/-- build/print.go:54-75 `FormatString` of an expression that is not a file; `none`: Go panics. -/
def formatString (x : Expr) : Option Bytes :=
  if x.isNil then some []
  else
    let st := expr .build (budget [x]) x 0 {}
    if st.bad then none else some st.out.reverse

end Verif.Print
