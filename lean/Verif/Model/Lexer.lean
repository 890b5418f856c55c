import Verif.Model.Scan
import Verif.Model.Syntax
import Verif.Model.Split
/-
Model of the lexer `(*input).Lex` (/repo/build/lex.go:188-688).

Simplifications. Go reads runes, the model reads bytes: every byte the lexer compares with is ASCII and each byte of a
multi-byte rune is at least 0x80, an identifier byte, so the same text is consumed. `LineRune` counts the bytes that
are not UTF-8 continuation bytes (exact on valid UTF-8). `bytes.TrimSpace` trims ASCII white space only. Error messages
and positions are not modelled: an error is `none`. The parser pulls tokens on demand and never influences the lexer, so the
model lexes the whole file first.
-/
namespace Verif.Lexer
open Verif Verif.Syntax

/-- The integer `Lex` returns: a character or one of the codes below. (build/parse.y.go:39-74) -/
abbrev Kind := Nat

/-! build/parse.y.go:40-75: token codes. -/
/-! The token codes: build/parse.y:93-127, numbered in build/parse.y.go:39-71. -/
namespace K
abbrev augm : Kind := 57346
abbrev and : Kind := 57347
abbrev comment : Kind := 57348
abbrev eof : Kind := 57349
abbrev eq : Kind := 57350
abbrev for_ : Kind := 57351
abbrev ge : Kind := 57352
abbrev ident : Kind := 57353
abbrev int : Kind := 57354
abbrev if_ : Kind := 57355
abbrev else_ : Kind := 57356
abbrev elif : Kind := 57357
abbrev in_ : Kind := 57358
abbrev is : Kind := 57359
abbrev lambda : Kind := 57360
abbrev load : Kind := 57361
abbrev le : Kind := 57362
abbrev ne : Kind := 57363
abbrev starStar : Kind := 57364
abbrev intDiv : Kind := 57365
abbrev lsh : Kind := 57366
abbrev rsh : Kind := 57367
abbrev arrow : Kind := 57368
abbrev not : Kind := 57369
abbrev or : Kind := 57370
abbrev string : Kind := 57371
abbrev def_ : Kind := 57372
abbrev return_ : Kind := 57373
abbrev pass : Kind := 57374
abbrev break_ : Kind := 57375
abbrev continue_ : Kind := 57376
abbrev indent : Kind := 57377
abbrev unindent : Kind := 57378
abbrev newline : Kind := 10
end K

/-- A token with the fields `Lex` sets in `yySymType` (build/parse.y:37-42). For `_INDENT` and `_UNINDENT` Go leaves `tok` and
`pos` as the previous call left them; nothing reads them and the model puts the empty text and the current position. -/
structure Tok where
  kind : Kind
  pos : Pos := {}
  tok : Bytes := []
  str : Bytes := []
  triple : Bool := false
deriving DecidableEq, Repr, Inhabited

/-- build/lex.go:188-201: the lexing state of `input`. `done` is the consumed part of `complete`, in reverse; `indents` is the stack,
top first. -/
structure State where
  done : Bytes := []
  rest : Bytes
  pos : Pos := ⟨1, 1, 0⟩
  lineComments : List Comment := []
  suffixComments : List Comment := []
  depth : Int := 0
  clean : Bool := true
  indent : Nat := 0
  indents : List Nat := [0]
deriving Repr, Inhabited

/-- build/lex.go:212-226 `newInput`. -/
def newInput (data : Bytes) : State := { rest := data ++ [10] }

/-- build/lex.go:228-230 `currentIndent`. -/
def State.currentIndent (st : State) : Nat := st.indents.headD 0

/-- build/lex.go:287-301: effect of `readRune` on the position, for one byte. -/
def advPos (p : Pos) (c : UInt8) : Pos :=
  if c = 10 then ⟨p.line + 1, 1, p.byte + 1⟩
  else ⟨p.line, if 0x80 ≤ c && c < 0xC0 then p.lineRune else p.lineRune + 1, p.byte + 1⟩

/-- build/lex.go:287-301: `readRune` for all of `text`, the front of `rest`; `rest'` is what follows. -/
def State.adv (st : State) (text rest' : Bytes) : State :=
  { st with done := text.reverse ++ st.done, rest := rest', pos := text.foldl advPos st.pos }

/-- build/lex.go:660-668 `isIdent`. -/
def isIdent (c : UInt8) : Bool :=
  (48 ≤ c && c ≤ 57) || (65 ≤ c && c ≤ 90) || (97 ≤ c && c ≤ 122) || c == 95 || 0x80 ≤ c

/-- build/lex.go:663 -/
def isDigit (c : UInt8) : Bool := 48 ≤ c && c ≤ 57

/-- build/lex.go:374-391: is the comment that starts after the text `line` (in reverse) of its line a suffix comment?
`bytes.TrimSpace`: only ASCII white space. -/
def isSuffixComment (line : Bytes) : Bool :=
  let p := (Buildozer.trimSpace line.reverse).filter (· != 32)
  !(p.isEmpty || p == b!"):" || p.getLast? == some c!"[" || p.getLast? == some c!"(" || p.getLast? == some c!"{")

/-- Where the loop of build/lex.go:342-435 stops. -/
inductive Skip where
  | newline (pos : Pos) (st : State)                 -- returns '\n'
  | comment (pos : Pos) (text : Bytes) (st : State)   -- returns _COMMENT
  | found (st : State)                   -- end of file or a character that is not blank
deriving Inhabited

/-- build/lex.go:341-435: skip blanks, comments and continuation lines. Every round consumes a byte, so `rest.length + 1` rounds are
enough. -/
def skip : Nat → State → Nat → Skip
  | 0, st, _ => .found st
  | fuel + 1, st, nl =>
    match st.rest with
    | [] => .found st
    | c :: r =>
      if c = 10 then
        let st1 := { st with indent := 0, clean := true }
        if st.depth = 0 then .newline st.pos (st1.adv [c] r)
        else skip fuel (st1.adv [c] r) (nl + 1)
      else if c = 32 then
        let st1 := if st.clean then { st with indent := st.indent + 1 } else st
        skip fuel (st1.adv [c] r) nl
      else if c = 9 || c = 13 then skip fuel (st.adv [c] r) nl
      else if c = c!"#" then
        let isLineComment := st.clean
        let suff := isSuffixComment (st.done.takeWhile (· != 10))
        let text := st.rest.takeWhile (· != 10)
        let st1 := { st with indent := 0, clean := true }
        let st2 := st1.adv text (st.rest.dropWhile (· != 10))
        if st.depth = 0 && isLineComment then .comment st.pos text st2
        else
          let lc := if nl > 1 then st.lineComments ++ [⟨st.pos, []⟩] else st.lineComments
          let st3 :=
            if suff then { st2 with lineComments := lc, suffixComments := st.suffixComments ++ [⟨st.pos, text⟩] }
            else { st2 with lineComments := lc ++ [⟨st.pos, text⟩] }
          skip fuel st3 0
      else if c = c!"\\" && r.head? == some 10 then skip fuel (st.adv [c, 10] (r.drop 1)) nl
      else .found st

/-- build/lex.go:498-550: an operator that starts with `c`, one of `< > = ! + - * / % | & ~ ^`; `r` is what follows. Result: kind, text
and rest. -/
def scanOp (c : UInt8) (r : Bytes) : Kind × Bytes × Bytes :=
  if c = c!"~" then (c.toNat, [c], r)
  else if c = c!"*" ∧ r.head? = some c!"*" then (K.starStar, [c, c], r.drop 1)
  else if c = c!"-" ∧ r.head? = some c!">" then (K.arrow, b!"->", r.drop 1)
  else
    let (k, t, r1) : Kind × Bytes × Bytes :=
      if r.head? = some c ∧ (c = c!"/" ∨ c = c!"<" ∨ c = c!">") then
        (if c = c!"/" then K.intDiv else if c = c!"<" then K.lsh else K.rsh, [c, c], r.drop 1)
      else (c.toNat, [c], r)
    if r1.head? = some c!"=" then
      (if k = 60 then K.le else if k = 62 then K.ge else if k = 61 then K.eq else if k = 33 then K.ne else K.augm,
        t ++ b!"=", r1.drop 1)
    else (k, t, r1)

/-- build/lex.go:618-638: the rest of an identifier or number; `digit`: the token starts with a digit; `last`: its last byte so far. -/
def scanIdent (digit : Bool) (last : UInt8) : Bytes → Bytes × Bytes
  | [] => ([], [])
  | c :: r =>
    if isIdent c || ((c == c!"+" || c == c!"-") && digit && (last == c!"e" || last == c!"E")) then
      let (t, r') := scanIdent digit c r
      (c :: t, r')
    else ([], c :: r)

/-- build/lex.go:640-658 and 670-688: what an identifier or number token is. -/
def identKind (t : Bytes) : Kind :=
  if t = b!"and" then K.and else if t = b!"for" then K.for_ else if t = b!"if" then K.if_ else if t = b!"else" then K.else_
  else if t = b!"elif" then K.elif else if t = b!"in" then K.in_ else if t = b!"is" then K.is
  else if t = b!"lambda" then K.lambda else if t = b!"load" then K.load else if t = b!"not" then K.not
  else if t = b!"or" then K.or else if t = b!"def" then K.def_ else if t = b!"return" then K.return_
  else if t = b!"pass" then K.pass else if t = b!"break" then K.break_ else if t = b!"continue" then K.continue_
  else match t with
    | c :: _ => if isDigit c then K.int else K.ident
    | [] => K.ident

/-- the characters of build/lex.go:498 -/
def isOpByte (c : UInt8) : Bool := b!"<>=!+-*/%|&~^".contains c
/-- build/lex.go:484 -/
def isOpen (c : UInt8) : Bool := b!"[({".contains c
/-- build/lex.go:489 -/
def isClose (c : UInt8) : Bool := b!"])}".contains c
/-- build/lex.go:494 -/
def isSingle (c : UInt8) : Bool := b!".:;,".contains c
/-- build/lex.go:552-566 -/
def isQuoteByte (c : UInt8) : Bool := c == c!"\"" || c == c!"'"

/-- A scanned token. (build/lex.go:482-660) -/
structure Scanned where
  kind : Kind
  text : Bytes
  str : Bytes := []
  triple : Bool := false
  rest : Bytes
deriving Repr, Inhabited

/-- build/lex.go:482-658: scan the token at the front of `b :: r`. `none` is a lexer error. -/
def scanTok (c : UInt8) (r : Bytes) : Option Scanned :=
  if isOpen c || isClose c || isSingle c then some { kind := c.toNat, text := [c], rest := r }
  else if isOpByte c then
    let (k, t, r') := scanOp c r
    some { kind := k, text := t, rest := r' }
  else if isQuoteByte c || (c == c!"r" && (r.head? == some c!"\"" || r.head? == some c!"'")) then
    match Scan.scanString (c :: r) with
    | none => none
    | some (t, r') =>
      let u := Quote.unquote t
      if u.err then none else some { kind := K.string, text := t, str := u.s, triple := u.triple, rest := r' }
  else if isIdent c then
    let (t, r') := scanIdent (isDigit c) c r
    some { kind := identKind (c :: t), text := c :: t, rest := r' }
  else none

/-- build/lex.go:484-492: change of the nesting depth by a token -/
def depthChange (k : Kind) : Int :=
  if k = 91 ∨ k = 40 ∨ k = 123 then 1 else if k = 93 ∨ k = 41 ∨ k = 125 then -1 else 0

/-- build/lex.go:463-658: after the indentation check. -/
def lexTok (st : State) : Option (Tok × State) :=
  let st := { st with clean := false }
  match st.rest with
  | [] =>
    if st.currentIndent > 0 then some ({ kind := K.unindent, pos := st.pos }, { st with indents := st.indents.drop 1 })
    else some ({ kind := K.eof, pos := st.pos }, st)
  | c :: r =>
    match scanTok c r with
    | none => none
    | some s =>
      some ({ kind := s.kind, pos := st.pos, tok := s.text, str := s.str, triple := s.triple },
        { st.adv s.text s.rest with depth := st.depth + depthChange s.kind })

/-- build/lex.go:339-658 `Lex`: the next token. `none` is an error. -/
def lex (st : State) : Option (Tok × State) :=
  match skip (st.rest.length + 1) st 0 with
  | .newline pos st' => some ({ kind := K.newline, pos := pos, tok := [10] }, st')
  | .comment pos text st' => some ({ kind := K.comment, pos := pos, tok := text }, st')
  | .found st' =>
    if st'.depth = 0 && st'.clean then
      if st'.indent > st'.currentIndent then
        some ({ kind := K.indent, pos := st'.pos }, { st' with indents := st'.indent :: st'.indents, clean := false })
      else if st'.indent < st'.currentIndent then
        let st2 := { st' with indents := st'.indents.drop 1 }
        if st2.indent > st2.currentIndent then none
        else some ({ kind := K.unindent, pos := st2.pos }, st2)
      else lexTok st'
    else lexTok st'

/-- Result of lexing a whole input. (build/lex.go:233-259) -/
inductive Result where
  | ok (toks : List Tok) (st : State)
  | error
  | fuel
deriving Inhabited

/-- The calls of `Lex` by `yyParse` (build/parse.y.go:846-), up to `_EOF`. -/
def lexAll : Nat → State → Result
  | 0, _ => .fuel
  | f + 1, st =>
    match lex st with
    | none => .error
    | some (t, st') =>
      if t.kind = K.eof then .ok [t] st'
      else match lexAll f st' with
        | .ok ts st2 => .ok (t :: ts) st2
        | r => r

/-- Enough calls of `Lex` for any state (`C47_terminates`). (no counterpart in Go) -/
def State.bound (st : State) : Nat := 3 * st.rest.length + (if st.clean then 2 else 0) + st.indents.length + 1

/-- Lexing a whole file. (build/lex.go:233-259) -/
def tokens (data : Bytes) : Result := let st := newInput data; lexAll st.bound st

end Verif.Lexer
