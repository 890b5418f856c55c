import Verif.Model.Strings
/-
Model of how buildozer splits its commands: /repo/edit/buildozer.go `SplitOnSpaces`, `parseCommands`, `appendCommandsFromReader`.
-/
namespace Verif.Buildozer
open Verif

/-- a byte that separates words unless it is escaped (edit/buildozer.go:1020-1034) -/
def isBlank (c : UInt8) : Bool := c == c!" " || c == c!"\n"

/-- buildozer.go:1015 `spaceRegex` = `(\\ |\\\n|[^ \n])+` matched at the start of the input: the match and the rest. The alternatives
are tried in order and the repetition is greedy (Go's regexp prefers leftmost alternatives); as the repetition may stop anywhere,
there is no backtracking. Multi-byte characters are matched byte by byte, which comes to the same. -/
def scanWord : Bytes → Bytes × Bytes
  | [] => ([], [])
  | [c] => if isBlank c then ([], [c]) else ([c], [])
  | c :: d :: l =>
    if c = c!"\\" ∧ isBlank d then (c :: d :: (scanWord l).1, (scanWord l).2)
    else if isBlank c then ([], c :: d :: l)
    else (c :: (scanWord (d :: l)).1, (scanWord (d :: l)).2)

/-- buildozer.go:1021 `spaceRegex.FindAllString(input, -1)`: leftmost matches that do not overlap; `n` bounds the number of steps -/
def findWords : Nat → Bytes → List Bytes
  | 0, _ => []
  | _, [] => []
  | n + 1, c :: l =>
    if isBlank c then findWords n l
    else (scanWord (c :: l)).1 :: findWords n (scanWord (c :: l)).2

/-- Go `strings.Replace(s, string([]byte{a, b}), r, -1)` -/
def replacePair (a b : UInt8) (r : Bytes) : Bytes → Bytes
  | [] => []
  | [x] => [x]
  | x :: y :: l => if x = a ∧ y = b then r ++ replacePair a b r l else x :: replacePair a b r (y :: l)

/-- buildozer.go:1020-1028 `SplitOnSpaces` -/
def splitOnSpaces (s : Bytes) : List Bytes :=
  (findWords s.length s).map fun w => replacePair c!"\\" c!"\n" [c!"\n"] (replacePair c!"\\" c!" " [c!" "] w)

/-- buildozer.go:1037-1053 `parseCommands`: the commands and the targets; `none` is an error. `known` says which words are names of
commands. Simplification: `checkCommandUsage`, which exits on a wrong number of arguments, is left out. -/
def parseCommands (known : Bytes → Bool) : List Bytes → Option (List (List Bytes) × List Bytes)
  | [] => some ([], [])
  | arg :: args =>
    match splitOnSpaces arg with
    | [] => none
    | w :: ws =>
      match parseCommands known args with
      | none => none
      | some (cs, ts) => if known w then some ((w :: ws) :: cs, ts) else some (cs, arg :: ts)

/-- buildozer.go:1405-1407 `saveEscapedPipes` -/
def saveEscapedPipes (s : Bytes) : Bytes := replacePair c!"\\" c!"|" [0, 0] s

/-- buildozer.go:1409-1411 `replaceSavedPipes` -/
def replaceSavedPipes (s : Bytes) : Bytes := replacePair 0 0 [c!"|"] s

/-- Go `unicode.IsSpace`, on ASCII -/
def isSpaceByte (c : UInt8) : Bool := c == 32 || (9 ≤ c && c ≤ 13)

/-- Go `strings.TrimSpace`. Simplification: only ASCII white space. -/
def trimSpace (s : Bytes) : Bytes := ((s.dropWhile isSpaceByte).reverse.dropWhile isSpaceByte).reverse

/-- buildozer.go:1382-1401: the arguments `appendCommands` gets for one line; `none` for a line that is skipped. -/
def lineArgs (labels : List Bytes) (line : Bytes) : Option (List Bytes) :=
  match trimSpace line with
  | [] => none
  | c :: l =>
    if c = c!"#" then none
    else
      let args := (splitAll c!"|" (saveEscapedPipes (c :: l))).map replaceSavedPipes
      match args with
      | a :: b :: _ => if b = b!"*" then some (a :: labels) else some args
      | _ => some args

/-- buildozer.go:1370-1403 `appendCommandsFromReader`: what `appendCommands` is called with, in order -/
def readCommands (labels : List Bytes) (input : Bytes) : List (List Bytes) := (splitAll c!"\n" input).filterMap (lineArgs labels)

/-- buildozer.go:1326-1351 `appendCommands`, for commands and targets that have been parsed: the map from files to commands, as a
list of pairs without repeated files. `files` gives the build files of a target (a parameter here; Model/Files
says which they are). -/
def appendCommand (m : List (Bytes × List (Bytes × List (List Bytes)))) (file : Bytes) (c : Bytes × List (List Bytes)) :
    List (Bytes × List (Bytes × List (List Bytes))) :=
  if m.any (fun p => p.1 = file) then m.map fun p => if p.1 = file then (p.1, p.2 ++ [c]) else p
  else m ++ [(file, [c])]

/-- buildozer.go:1331-1349 -/
def appendCommands (files : Bytes → List Bytes) (m : List (Bytes × List (Bytes × List (List Bytes)))) (cs : List (List Bytes))
    (targets : List Bytes) : List (Bytes × List (Bytes × List (List Bytes))) :=
  targets.foldl (fun m t => (files t).foldl (fun m f => appendCommand m f (t, cs)) m) m

end Verif.Buildozer
