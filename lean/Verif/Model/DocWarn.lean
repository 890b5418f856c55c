import Verif.Model.Flow
import Verif.Model.Bzlenv
import Verif.Model.Strings
/-
Model of /repo/warn/warn_docstring.go.

A finding is the node it is about and, for the checks of arguments, the position it points at. Messages are left out.
-/
namespace Verif.DocWarn
open Verif Verif.Syntax Verif.Walk

/-- warn_docstring.go:31-48 `getDocstring`: the first statement that is not a comment, and whether it is a string -/
def getDocstring : List Expr → Option Expr × Bool
  | [] => (none, false)
  | .nil :: l => getDocstring l
  | .commentBlock .. :: l => getDocstring l
  | .string s :: _ => (some (.string s), true)
  | e :: _ => (some e, false)

/-- the docstring, if `getDocstring` says there is one (warn_docstring.go:254-259) -/
def docOf (stmts : List Expr) : Option StringN :=
  match getDocstring stmts with
  | (some (.string s), true) => some s
  | _ => none

/-- warn_docstring.go:50-67 `moduleDocstringWarning`; `bzl`: the file is of one of the two types -/
def moduleDocstring (bzl : Bool) (stmts : List Expr) : Option Expr :=
  if !bzl then none
  else match getDocstring stmts with
    | (some e, false) => some e
    | _ => none

mutual
/-- warn_docstring.go:72-79: one statement -/
def stmts1 : Expr → Nat
  | .ifS _ _ _ t _ f => 1 + stmtsCount t + stmtsCount f
  | .forS _ _ _ _ b => 1 + stmtsCount b
  | _ => 1
/-- warn_docstring.go:69-82 `stmtsCount` -/
def stmtsCount : List Expr → Nat
  | [] => 0
  | s :: l => stmts1 s + stmtsCount l
end

/-- warn_docstring.go:93-104 `countLeadingSpaces` -/
def leadingSpaces (s : Bytes) : Nat := (s.takeWhile (· == c!" ")).length

/-- Go `strings.TrimRight(s, string(c))` for one byte (warn_docstring.go:118, 128) -/
def trimRight (c : UInt8) (s : Bytes) : Bytes := (s.reverse.dropWhile (· == c)).reverse

/-- the lines of the docstring (warn_docstring.go:114-129) -/
def docLines (v : Bytes) : List Bytes := (splitAll 10 v).map fun l => trimRight c!" " (trimRight 13 l)

/-- warn_docstring.go:131-140: whether the first line that is not empty is the last one or followed by an empty one -/
def hasHeader : List Bytes → Bool
  | [] => false
  | [] :: l => hasHeader l
  | (_ :: _) :: [] => true
  | (_ :: _) :: n :: _ => n = []

/-- `\w` of package regexp (warn_docstring.go:106) -/
def isWord (c : UInt8) : Bool := (48 ≤ c && c ≤ 57) || (65 ≤ c && c ≤ 90) || (97 ≤ c && c ≤ 122) || c == c!"_"

/-- `[\w\ ,<>\[\]]` (warn_docstring.go:106) -/
def isTypeByte (c : UInt8) : Bool := isWord c || c == c!" " || c == c!"," || c == c!"<" || c == c!">" || c == c!"[" || c == c!"]"

/-- `\*?` twice (warn_docstring.go:106): the stars and what follows -/
def stars : Bytes → Bytes × Bytes
  | a :: l =>
    if a = c!"*" then
      match l with
      | b :: l => if b = c!"*" then ([a, b], l) else ([a], b :: l)
      | [] => ([a], [])
    else ([], a :: l)
  | [] => ([], [])

/-- `( *\([\w\ ,<>\[\]]+\))?:` (warn_docstring.go:106) at the beginning of the text -/
def typeColon (s : Bytes) : Bool :=
  match s with
  | [] => false
  | c :: _ =>
    if c = c!":" then true
    else match s.dropWhile (· == c!" ") with
      | a :: t => if a = c!"(" then !(t.takeWhile isTypeByte).isEmpty && (b!"):").isPrefixOf (t.dropWhile isTypeByte) else false
      | [] => false

/-- warn_docstring.go:106 `argRegex`, 177: the name of the argument that the line describes. The regular expression is matched without backtracking: no shorter match of a
part lets the rest match. -/
def argName (line : Bytes) : Option Bytes :=
  let l := line.dropWhile (· == c!" ")
  let (st, r) := stars l
  if typeColon (r.dropWhile isWord) then some (st ++ r.takeWhile isWord) else none

/-- the variables of the loop warn_docstring.go:143-187. `args`: the assignments to `info.args` in order: name, line, indentation. -/
structure St where
  i : Nat := 0
  inArgs : Bool := false
  argIndent : Nat := 1000000
  args : List (Bytes × Nat × Nat) := []
  returns : Bool := false
  deprecated : Bool := false
  arguments : Option Nat := none
deriving DecidableEq

/-- warn_docstring.go:165-186 -/
def stepArgs (indent : Nat) (st : St) (line : Bytes) : St :=
  if st.inArgs then
    if line ≠ [] ∧ leadingSpaces line ≤ indent then { st with inArgs := false }
    else if leadingSpaces line > st.argIndent then st
    else match argName line with
      | some n => { st with argIndent := leadingSpaces line, args := st.args ++ [(n, st.i, leadingSpaces line)] }
      | none => st
  else st

/-- one line (warn_docstring.go:144-186) -/
def stepLine (indent : Nat) (st : St) (line : Bytes) : St :=
  let pre := List.replicate indent c!" "
  if line = pre ++ b!"Arguments:" then { st with arguments := some st.i, inArgs := true }
  else if line = pre ++ b!"Args:" then { st with inArgs := true }
  else if line = pre ++ b!"Returns:" then { st with inArgs := false, returns := true }
  else if line = pre ++ b!"Deprecated:" then { st with inArgs := false, deprecated := true }
  else stepArgs indent st line

/-- one line, and the next index -/
def next (indent : Nat) (st : St) (line : Bytes) : St := { stepLine indent st line with i := st.i + 1 }

/-- warn_docstring.go:142-187 -/
def parseLines (indent : Nat) (lines : List Bytes) : St := lines.foldl (next indent) {}

/-- `start.LineRune - 1` (warn_docstring.go:111-112); columns of parsed files are at least 1 -/
def indentOf (doc : StringN) : Nat := doc.start.lineRune - 1

/-- warn_docstring.go:108-189 `parseFunctionDocstring` -/
def parseDoc (doc : StringN) : St := parseLines (indentOf doc) (docLines doc.value)

/-- warn_docstring.go:208-216 `isDocstringRequired` -/
def required (p : Pos) (name : Bytes) (body : List Expr) : Bool :=
  if p.lineRune > 1 then false else !hasPrefix name b!"_" && decide (stmtsCount body ≥ 5)

/-- warn_docstring.go:222-241 for one statement -/
def lacksDocstring : Expr → Bool
  | .defS _ p n _ b _ _ _ _ => required p n b && !(getDocstring b).2
  | _ => false

/-- warn_docstring.go:218-243 `functionDocstringWarning` -/
def functionDocstring (stmts : List Expr) : List Expr := stmts.filter lacksDocstring

/-- warn_docstring.go:249-265 for one statement -/
def badHeader : Expr → Option StringN
  | .defS _ _ _ _ b _ _ _ _ =>
    match docOf b with
    | some d => if hasHeader (docLines d.value) then none else some d
    | none => none
  | _ => none

/-- warn_docstring.go:245-268 `functionDocstringHeaderWarning` -/
def headerWarning (f : Expr) : List StringN := (Flow.walkSt (fun _ _ => false) [] f).flatMap fun q => (badHeader q.2.2).toList

/-- the stars of a parameter (build/utils.go:28-48 `GetParamIdent`) -/
def paramOp : Expr → Bytes
  | .assign _ lhs .. => paramOp lhs
  | .unary _ _ op _ => op
  | _ => []

/-- the names of parameters, with stars (warn_docstring.go:305-311) -/
def paramNames (ps : List Expr) : List Bytes :=
  ps.flatMap fun p => if Bzlenv.paramName p = [] then [] else [paramOp p ++ Bzlenv.paramName p]

/-- what `functionDocstringArgsWarning` reports about a docstring (warn_docstring.go:286-294, 317-349, 351-370): `line` is relative to the start of the docstring -/
inductive Finding where
  | arguments (line col : Nat)
  | undocumented (names : List Bytes)
  | unknown (name : Bytes) (line col : Nat)
deriving DecidableEq, Repr

/-- warn_docstring.go:286-294: the heading `Arguments:` -/
def argumentsFinding (indent : Nat) : Option Nat → List Finding
  | some k => if indent > 0 then [.arguments k indent] else []
  | none => []

/-- warn_docstring.go:284-371. `order`: the entries of the map `info.args` in the order of the iteration. -/
def argFindings (required : Bool) (indent : Nat) (ps : List Expr) (st : St) (order : List (Bytes × Nat × Nat)) : List Finding :=
  let pre := argumentsFinding indent st.arguments
  if !required && st.args.isEmpty then pre
  else
    let names := paramNames ps
    let missing := names.filter fun n => !(st.args.map (·.1)).contains n
    pre ++ (if missing.isEmpty then [] else [.undocumented missing]) ++
      (order.filter fun a => !names.contains a.1).map fun a => .unknown a.1 a.2.1 (indent + a.2.2)

/-- warn_docstring.go:273-372 for one statement. `iter`: how the map with these assignments is iterated. -/
def argFinding (iter : List (Bytes × Nat × Nat) → List (Bytes × Nat × Nat)) : Expr → List (StringN × Finding)
  | .defS _ p n ps b _ _ _ _ =>
    match docOf b with
    | some d =>
      let st := parseDoc d
      (argFindings (required p n b) (indentOf d) ps st (iter st.args)).map fun x => (d, x)
    | none => []
  | _ => []

/-- warn_docstring.go:270-374 `functionDocstringArgsWarning` -/
def argsWarning (iter : List (Bytes × Nat × Nat) → List (Bytes × Nat × Nat)) (f : Expr) : List (StringN × Finding) :=
  (Flow.walkSt (fun _ _ => false) [] f).flatMap fun q => argFinding iter q.2.2

/-- warn_docstring.go:379-398 for one statement; warn_docstring.go:191-206 `hasReturnValues` is the same as in warn_control_flow.go -/
def lacksReturn : Expr → Option StringN
  | .defS c p n ps b cp fc fm t =>
    match docOf b with
    | some d => if required p n b && Flow.hasValueReturn (.defS c p n ps b cp fc fm t) && !(parseDoc d).returns then some d else none
    | none => none
  | _ => none

/-- warn_docstring.go:376-400 `functionDocstringReturnWarning` -/
def returnWarning (f : Expr) : List StringN := (Flow.walkSt (fun _ _ => false) [] f).flatMap fun q => (lacksReturn q.2.2).toList

end Verif.DocWarn
