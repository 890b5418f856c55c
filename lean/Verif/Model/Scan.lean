import Verif.Model.Quote
/-
Model of the string-literal scanner inside `(*input).Lex` (/repo/build/lex.go:545-609).

Simplification used here: Go reads whole runes, the model reads bytes. The two consume the same text:
quotes, backslashes and newlines are single bytes below 0x80, and every byte of a multi-byte rune is
at least 0x80, so treating its bytes one by one as ordinary characters changes nothing, also when the
rune follows a backslash (only its first byte is skipped, the others are ordinary characters).
-/
namespace Verif.Scan
open Verif

/-- lex.go:586-604: the body of a one-line string after the opening quote `q`, up to and including
the closing quote. Result: consumed text and rest; `none` is a lexer error (EOF or newline). -/
def scanSingle (q : UInt8) : Bytes → Option (Bytes × Bytes)
  | [] => none
  | c :: rest =>
    if c = 10 then none
    else if c = q then some ([c], rest)
    else if c = c!"\\" then
      match rest with
      | [] => none
      | d :: rest' => (scanSingle q rest').map fun (t, r) => (c :: d :: t, r)
    else (scanSingle q rest).map fun (t, r) => (c :: t, r)

/-- lex.go:563-584: the body of a triple-quoted string after the opening quotes; `c1`, `c2` say whether
the previous two runes read by the loop were the quote. -/
def scanTriple (q : UInt8) (c1 c2 : Bool) : Bytes → Option (Bytes × Bytes)
  | [] => none
  | c :: rest =>
    if c1 && c2 && c = q then some ([c], rest)
    else if c = c!"\\" then
      match rest with
      | [] => none
      | d :: rest' => (scanTriple q c2 false rest').map fun (t, r) => (c :: d :: t, r)
    else (scanTriple q c2 (c = q) rest).map fun (t, r) => (c :: t, r)

/-- lex.go:558-605: scanning from the opening quote. -/
def scanQuoted : Bytes → Option (Bytes × Bytes)
  | [] => none
  | q :: rest =>
    if q ≠ c!"\"" && q ≠ c!"'" then none
    else match rest with
      | a :: b :: rest' =>
        if a = q && b = q then (scanTriple q false false rest').map fun (t, r) => (q :: a :: b :: t, r)
        else (scanSingle q rest).map fun (t, r) => (q :: t, r)
      | _ => (scanSingle q rest).map fun (t, r) => (q :: t, r)

/-- lex.go:545-605: a string token, with the optional raw prefix `r`. Result: token text and rest. -/
def scanString : Bytes → Option (Bytes × Bytes)
  | [] => none
  | c :: rest =>
    if c = c!"r" then (scanQuoted rest).map fun (t, r) => (c :: t, r)
    else scanQuoted (c :: rest)

end Verif.Scan

namespace Verif.Quote

/-- build/quote.go:242-260 `IsCorrectEscaping`. `none` is a Go run-time panic: the 256-entry table
`escapable` is indexed with the rune after a backslash, which panics for every rune ≥ 256 (in
particular for U+FFFD, what an invalid UTF-8 byte decodes to). A rune in 128..255 is encoded as
`0xC2 xx` or `0xC3 xx` and is not escapable. -/
def isCorrectEscaping : Bytes → Option Bool
  | [] => some true
  | c :: rest =>
    if c ≠ c!"\\" then isCorrectEscaping rest
    else match rest with
      | [] => some true
      | d :: rest' =>
        if d < 0x80 then (if escapable d then isCorrectEscaping rest' else some false)
        else if (d = 0xC2 || d = 0xC3) && (match rest' with
          | e :: _ => 0x80 ≤ e && e ≤ 0xBF
          | [] => false) then some false
        else none

/-- Go's `strings.HasSuffix(t, string(s))`. -/
def hasSuffix (t s : Bytes) : Bool := s.isSuffixOf t

/-- build/print.go:626-657: the text printed for a string literal with source token `tok`, value `value`
and triple flag `triple`. `none` is a Go panic (slice bounds or `IsCorrectEscaping`). -/
def printString (tok value : Bytes) (triple : Bool) : Option Bytes :=
  let u := unquote tok
  let fallback := some (quote value triple)
  if u.err = false ∧ u.s = value ∧ u.triple = triple then
    if tok.head? = some c!"r" then
      if hasSuffix tok b!"'" && !value.contains c!"\"" then
        if hasSuffix tok b!"'''" then
          if tok.length < 7 then none
          else some (b!"r\"\"\"" ++ (tok.drop 4).take (tok.length - 7) ++ b!"\"\"\"")
        else
          if tok.length < 3 then none
          else some (b!"r\"" ++ (tok.drop 2).take (tok.length - 3) ++ b!"\"")
      else some tok
    else if tok.head? = some c!"\"" || value.contains c!"\"" then
      match isCorrectEscaping tok with
      | none => none
      | some true => some tok
      | some false => fallback
    else fallback
  else fallback

end Verif.Quote
