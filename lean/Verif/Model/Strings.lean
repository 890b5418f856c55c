import Verif.Basic
/-
Model of the Go standard-library string functions used by the code (`strings`, `path`).
-/
namespace Verif

/-- Go `strings.SplitN(s, string(sep), 2)`: the part before the first `sep`, and the part after it if
there is one. -/
def split2 (sep : UInt8) : Bytes → Bytes × Option Bytes
  | [] => ([], none)
  | c :: l =>
    if c = sep then ([], some l)
    else ((c :: (split2 sep l).1), (split2 sep l).2)

/-- Go `strings.HasPrefix`. -/
def hasPrefix (s p : Bytes) : Bool := p.isPrefixOf s

/-- Go `strings.TrimPrefix`. -/
def trimPrefix (s p : Bytes) : Bytes := if p.isPrefixOf s then s.drop p.length else s

/-- Go `strings.TrimLeft(s, string(c))` for one byte `c`. -/
def trimLeft (c : UInt8) (s : Bytes) : Bytes := s.dropWhile (· == c)

/-- the part of `s` after its last `c` (all of `s` if there is none) -/
def afterLast (c : UInt8) (s : Bytes) : Bytes := (s.reverse.takeWhile (· != c)).reverse

/-- Go `path.Base`. -/
def pathBase (p : Bytes) : Bytes :=
  if p = [] then b!"."
  else
    let p' := (p.reverse.dropWhile (· == c!"/")).reverse
    let b := afterLast c!"/" p'
    if b = [] then b!"/" else b

/-- Go `strings.Split(s, string(sep))` for one byte. Always non-empty. -/
def splitAll (sep : UInt8) : Bytes → List Bytes
  | [] => [[]]
  | c :: l =>
    if c = sep then [] :: splitAll sep l
    else match splitAll sep l with
      | [] => [[c]]
      | w :: ws => (c :: w) :: ws

/-- Go `strings.Join(l, string(sep))` for one byte. -/
def joinWith (sep : UInt8) : List Bytes → Bytes
  | [] => []
  | [w] => w
  | w :: ws => w ++ sep :: joinWith sep ws

/-- Go `strings.Contains`. -/
def contains (s p : Bytes) : Bool :=
  match s with
  | [] => p.isEmpty
  | c :: l => p.isPrefixOf (c :: l) || contains l p

/-- Go `strings.HasSuffix`. -/
def hasSuffix (s p : Bytes) : Bool := p.isSuffixOf s

/-- one byte of `toLower` -/
def lowerByte (c : UInt8) : UInt8 := if 65 ≤ c && c ≤ 90 then c + 32 else c

/-- Go `strings.ToLower`, on ASCII. Simplification: non-ASCII letters are left alone. -/
def toLower (s : Bytes) : Bytes := s.map lowerByte

/-- Go `strings.Replace(s, string(a), string(b), -1)` for single bytes. -/
def replaceByte (a b : UInt8) (s : Bytes) : Bytes := s.map fun c => if c = a then b else c

end Verif
