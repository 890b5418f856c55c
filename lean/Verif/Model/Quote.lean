import Verif.Basic
/-
Model of /repo/build/quote.go: string quoting and unquoting, byte for byte.
-/
namespace Verif.Quote
open Verif

/-- build/quote.go:29-40 `unesc`: single-letter chars following `\` and their values (0 = no entry). -/
def unesc (c : UInt8) : UInt8 :=
  if c = c!"a" then 7
  else if c = c!"b" then 8
  else if c = c!"f" then 12
  else if c = c!"n" then 10
  else if c = c!"r" then 13
  else if c = c!"t" then 9
  else if c = c!"v" then 11
  else if c = c!"\\" then c!"\\"
  else if c = c!"'" then c!"'"
  else if c = c!"\"" then c!"\""
  else 0

/-- build/quote.go:43-54 `esc`: escape-worthy bytes and the char that follows `\` (0 = no entry). -/
def esc (c : UInt8) : UInt8 :=
  if c = 7 then c!"a"
  else if c = 8 then c!"b"
  else if c = 12 then c!"f"
  else if c = 10 then c!"n"
  else if c = 13 then c!"r"
  else if c = 9 then c!"t"
  else if c = 11 then c!"v"
  else if c = c!"\\" then c!"\\"
  else if c = c!"'" then c!"'"
  else if c = c!"\"" then c!"\""
  else 0

/-- build/quote.go:155 the one-char escapes `a b f n r t v \ ' "`. -/
def isSimpleEsc (c : UInt8) : Bool :=
  c = c!"a" || c = c!"b" || c = c!"f" || c = c!"n" || c = c!"r" || c = c!"t" || c = c!"v" ||
  c = c!"\\" || c = c!"'" || c = c!"\""

/-- build/quote.go:160 an octal digit. -/
def isOct (c : UInt8) : Bool := c!"0" ≤ c && c ≤ c!"7"

/-- value of a hexadecimal digit (part of Go's `strconv.ParseInt(_, 16, 0)`). -/
def hexVal (c : UInt8) : Option Nat :=
  if c!"0" ≤ c && c ≤ c!"9" then some (c.toNat - 48)
  else if c!"a" ≤ c && c ≤ c!"f" then some (c.toNat - 97 + 10)
  else if c!"A" ≤ c && c ≤ c!"F" then some (c.toNat - 65 + 10)
  else none

/-- all-digit hexadecimal number; fails on an empty string. -/
def hexDigits : Bytes → Option Nat
  | [] => none
  | l => l.foldl (fun acc c => match acc, hexVal c with
      | some n, some d => some (n * 16 + d)
      | _, _ => none) (some 0)

/-- Go's `strconv.ParseInt(s, 16, 0)` for the at most 8 byte long strings it is applied to (so that
it cannot overflow): an optional sign followed by hexadecimal digits. -/
def parseHexInt : Bytes → Option Int
  | [] => none
  | c :: l =>
    if c = c!"+" then (hexDigits l).map Int.ofNat
    else if c = c!"-" then (hexDigits l).map (fun n => - Int.ofNat n)
    else (hexDigits (c :: l)).map Int.ofNat

/-- Go's `bytes.Buffer.WriteRune(rune(n))` for `n ≤ 0x10FFFF` outside the surrogate range; a negative
rune is written as U+FFFD. -/
def encodeRune (n : Int) : Bytes :=
  if n < 0 then [0xEF, 0xBF, 0xBD]
  else
    let k := n.toNat
    if k < 0x80 then [UInt8.ofNat k]
    else if k < 0x800 then [UInt8.ofNat (0xC0 + k / 64), UInt8.ofNat (0x80 + k % 64)]
    else if k < 0x10000 then
      [UInt8.ofNat (0xE0 + k / 4096), UInt8.ofNat (0x80 + k / 64 % 64), UInt8.ofNat (0x80 + k % 64)]
    else
      [UInt8.ofNat (0xF0 + k / 262144), UInt8.ofNat (0x80 + k / 4096 % 64),
       UInt8.ofNat (0x80 + k / 64 % 64), UInt8.ofNat (0x80 + k % 64)]

/-- build/quote.go:160-179: the octal digits (at most `k`) at the front of the input, accumulated on `n`. -/
def octRun : Nat → Nat → Bytes → Nat × Bytes
  | 0, n, l => (n, l)
  | _ + 1, n, [] => (n, [])
  | k + 1, n, c :: l => if isOct c then octRun k (n * 8 + (c.toNat - 48)) l else (n, c :: l)

/-- build/quote.go:144-238: one escape sequence, the input being what follows the backslash.
Result: the bytes written and the remaining input; `none` is a returned error. -/
def escapeSeq : Bytes → Option (Bytes × Bytes)
  | [] => none                                          -- truncated escape sequence
  | c :: l =>
    if c = 10 then some ([], l)
    else if isSimpleEsc c then some ([unesc c], l)
    else if isOct c then
      let (n, l') := octRun 2 (c.toNat - 48) l
      if n ≥ 256 then none else some ([UInt8.ofNat n], l')
    else if c = c!"u" then
      if l.length < 4 then none
      else match parseHexInt (l.take 4) with
        | none => none
        | some n => if 0xD800 ≤ n ∧ n ≤ 0xDFFF then none else some (encodeRune n, l.drop 4)
    else if c = c!"U" then
      if l.length < 8 then none
      else match parseHexInt (l.take 8) with
        | none => none
        | some n => if 0xD800 ≤ n ∧ n ≤ 0xDFFF then none
          else if n > 0x10FFFF then none
          else some (encodeRune n, l.drop 8)
    else if c = c!"x" then
      if l.length < 2 then none
      else match parseHexInt (l.take 2) with
        | none => none
        | some n => some ([UInt8.ofNat (n % 256).toNat], l.drop 2)
    else some ([c!"\\", c], l)

/-- build/quote.go:122-239: the escape-processing loop. The Go loop copies the text up to the next
backslash in one go; here it is copied byte by byte. `fuel` bounds the number of steps and is always
the length of the input plus one, which suffices because every step consumes a byte. -/
def unescape : Nat → Bytes → Option Bytes
  | 0, _ => none
  | _ + 1, [] => some []
  | fuel + 1, c :: l =>
    if c = c!"\\" then
      match escapeSeq l with
      | none => none
      | some (out, l') => (unescape fuel l').map (out ++ ·)
    else (unescape fuel l).map (c :: ·)

/-- Results of `Unquote`: value, triple flag, and whether an error is returned. (build/quote.go:88) -/
structure Unquoted where
  s : Bytes
  triple : Bool
  err : Bool
deriving DecidableEq, Repr

/-- build/quote.go:107: does the literal (without raw prefix) have triple quotes? -/
def isTripleLit (quoted : Bytes) : Bool :=
  decide (quoted.length ≥ 6) && (quoted[1]? == quoted[0]? && (quoted[2]? == quoted[0]? &&
    quoted.take 3 == quoted.drop (quoted.length - 3)))

/-- build/quote.go:101: invalid quotes. -/
def badQuotes (quoted : Bytes) : Bool :=
  (quoted[0]? != some c!"\"" && quoted[0]? != some c!"'") || quoted[0]? != quoted.getLast?

/-- build/quote.go:96-240: `Unquote` after the raw prefix has been removed. As in Go, an
"invalid quotes" error does not stop the decoding. -/
def unquoteRest (raw : Bool) (quoted : Bytes) : Unquoted :=
  if quoted.length < 2 then ⟨[], false, true⟩
  else
    let body := if isTripleLit quoted then (quoted.drop 3).take (quoted.length - 6)
                else (quoted.drop 1).take (quoted.length - 2)
    if raw || !body.contains c!"\\" then ⟨body, isTripleLit quoted, badQuotes quoted⟩
    else match unescape (body.length + 1) body with
      | none => ⟨[], isTripleLit quoted, true⟩
      | some s => ⟨s, isTripleLit quoted, badQuotes quoted⟩

/-- build/quote.go:88-94 `Unquote`: strip the raw prefix, then decode. -/
def unquote : Bytes → Unquoted
  | [] => unquoteRest false []
  | c :: l => if c = c!"r" then unquoteRest true l else unquoteRest false (c :: l)

/-- build/quote.go:274 `hex` restricted to the octal digits it is used for. -/
def octDigit (n : UInt8) : UInt8 := 48 + n

/-- build/quote.go:298-336: the text written for one byte that is not passed through as a quote run. -/
def escByte (triple : Bool) (c : UInt8) : Bytes :=
  if triple && c = 10 then [c]
  else if c = c!"'" then [c]
  else if c = c!"\\" then [c!"\\", c!"\\"]
  else if esc c ≠ 0 then [c!"\\", esc c]
  else if c < 0x20 || c ≥ 0x80 then
    [c!"\\", octDigit (c >>> 6), octDigit ((c >>> 3) &&& 7), octDigit (c &&& 7)]
  else [c]

/-- build/quote.go:289: may a `"` followed by `rest` be passed through in triple mode? -/
def passQuote : Bytes → Bool
  | [] => false
  | [d] => d ≠ c!"\""
  | d :: e :: _ => d ≠ c!"\"" || e ≠ c!"\""

/-- build/quote.go:287-337: the loop over the bytes of the string. -/
def quoteBody (triple : Bool) : Bytes → Bytes
  | [] => []
  | c :: rest =>
    if c = c!"\"" && triple && passQuote rest then
      match rest with
      | d :: rest' => if d = c!"\"" then c :: c :: quoteBody triple rest'
                      else c :: quoteBody triple (d :: rest')
      | [] => [c]
    else escByte triple c ++ quoteBody triple rest

/-- build/quote.go:278-341 `quote`. -/
def quote (s : Bytes) (triple : Bool) : Bytes :=
  let q := if triple then b!"\"\"\"" else b!"\""
  q ++ quoteBody triple s ++ q

/-- build/quote.go:58-83 `escapable`. -/
def escapable (c : UInt8) : Bool :=
  c = 10 || isSimpleEsc c || c = c!"u" || c = c!"U" || c = c!"x" || (c!"0" ≤ c && c ≤ c!"9")

end Verif.Quote
