import Verif.Model.NameWarn
import Verif.Model.ListEdit
/-
Model of /repo/unused_deps (jar_manifest.go and the pure part of unused_deps.go).

Files are values: a params file, a jdeps file and a jar are what reading them gives, `none` if that fails. A map is a list of pairs.
Not modelled: running the build tool, the protobuf decoding of jdeps files, the text around the labels in the printed commands.
-/
namespace Verif.UnusedDeps
open Verif Verif.Syntax

/-! ### the manifest of a jar -/

/-- unused_deps/jar_manifest.go:28-52 `manifestIndexNewline`: where the first newline starts, and where it ends -/
def indexNewline (s : Bytes) : Option (Nat × Nat) :=
  match s.findIdx? (· == 10), s.findIdx? (· == 13) with
  | none, none => none
  | none, some r => some (r, r + 1)
  | some n, none => some (n, n + 1)
  | some n, some r =>
    if n < r then some (n, n + 1)
    else if n = r + 1 then some (r, n + 1)
    else some (r, r + 1)

/-- unused_deps/jar_manifest.go:85-94: the value, which goes on in the lines that start with a space. The number is a recursion budget:
every line is shorter than what is left. -/
def unfold : Nat → Bytes → Option Bytes
  | 0, _ => none
  | f + 1, rest =>
    if rest.head? = some 32 then
      match indexNewline rest with
      | none => none
      | some q => (unfold f (rest.drop q.2)).map ((rest.take q.1).drop 1 ++ ·)
    else some []

/-- unused_deps/jar_manifest.go:79-95: the value of a key in the text of a manifest -/
def manifestValue (key contents : Bytes) : Option Bytes :=
  match NameWarn.after (key ++ b!":") contents with
  | none => none
  | some rest => unfold (rest.length + 1) rest

/-- A jar (unused_deps/jar_manifest.go:57-64): its entries, each with its name and its contents (`none` if it cannot be read). -/
abbrev Jar := List (Bytes × Option Bytes)

/-- unused_deps/jar_manifest.go:56-98 `jarManifestValue`: only the first manifest is read -/
def jarValue (key : Bytes) (jar : Option Jar) : Option Bytes :=
  match jar with
  | none => none
  | some entries =>
    match entries.find? (fun q => q.1 = b!"META-INF/MANIFEST.MF") with
    | some (_, some contents) => manifestValue key contents
    | _ => none

/-! ### the direct dependencies -/

/-- `bufio.ScanLines`: a line without the carriage return at its end (unused_deps/unused_deps.go:169-171) -/
def dropCR (l : Bytes) : Bytes := if l.getLast? = some 13 then l.dropLast else l

/-- the lines a `bufio.Scanner` yields (unused_deps/unused_deps.go:169-171): the last one may lack its newline, and it gives up at
a line of 64 KiB -/
def scanLines (s : Bytes) : List Bytes :=
  let ls := splitAll 10 s
  let ls := if ls.getLast? = some [] then ls.dropLast else ls
  (ls.takeWhile fun l => decide (l.length < 65536)).map dropCR

/-- unused_deps/unused_deps.go:180-182: the label as it is written in a BUILD file -/
def plain (label : Bytes) : Bytes :=
  if hasPrefix label b!"@@" || hasPrefix label b!"@/" then label.drop 1 else label

/-- unused_deps/unused_deps.go:176: the place of the jar on disk -/
def jarPath (out jar : Bytes) : Bytes := out ++ trimPrefix jar b!"bazel-out"

/-- unused_deps/unused_deps.go:171-184: the labels of the jars of a section -/
def section_ (disk : Bytes → Option Jar) (out : Bytes) (lines : List Bytes) : List (Bytes × Bytes) :=
  (lines.takeWhile fun l => !hasPrefix l b!"--").filterMap fun jar =>
    (jarValue b!"Target-Label" (disk (jarPath out jar))).map fun label => (jar, plain label)

/-- unused_deps/unused_deps.go:154-195 `directDepParams` on one file; `none` is a crash (the slice `data[first:]`, line 169). A file that
cannot be read has no dependencies. -/
def directDeps (disk : Bytes → Option Jar) (out : Bytes) (params : Option Bytes) : Option (List (Bytes × Bytes)) :=
  match params with
  | none => some []
  | some data =>
    match NameWarn.after b!"--direct_dependencies" data with
    | none => some []
    | some [] => none
    | some (_ :: rest) => some (section_ disk out (scanLines rest))

/-- `Dependency_Kind` of the deps protobuf (unused_deps/unused_deps.go:216) -/
inductive Kind where
  | explicit | implicit | unused | incomplete
deriving DecidableEq, Repr

/-- the lookup in a map of strings, the empty string by default (unused_deps/unused_deps.go:217) -/
def label (deps : List (Bytes × Bytes)) (jar : Bytes) : Bytes :=
  match deps.find? (fun q => q.1 = jar) with
  | some q => q.2
  | none => []

/-- unused_deps/unused_deps.go:200-221 `unusedDeps`; the result is a set. `jdeps` is `none` if the file cannot be read or decoded. -/
def unusedDeps (jdeps : Option (List (Kind × Bytes))) (deps : List (Bytes × Bytes)) : List Bytes :=
  match jdeps with
  | none => []
  | some used =>
    used.foldl (fun s d => if d.1 = .explicit then s.filter (fun l => l ≠ label deps d.2) else s) (deps.map (·.2)).eraseDups

/-- unused_deps/unused_deps.go:115-122 `writeUnusedDeps`: the lines it writes. It calls `directDepParams(paramsPath)`, whose first
parameter is the output path, with no params file at all. -/
def writeUnusedDeps (jdeps : Option (List (Kind × Bytes))) : List Bytes := unusedDeps jdeps []

/-! ### the commands -/

/-- unused_deps/unused_deps.go:253-260 `hasRuntimeComment` -/
def hasRuntimeComment (c : Comments) : Bool := c.suffix.any fun k => contains (toLower k.token) b!"runtime"

/-- What is printed (unused_deps/unused_deps.go:288-294): `buildozer 'move deps runtime_deps <value>'`, or
`buildozer "add deps <what it exports>"` and `buildozer 'remove deps <value>'`. -/
inductive Command where
  | move (value : Bytes)
  | remove (value : Bytes)
deriving DecidableEq, Repr

/-- unused_deps/unused_deps.go:281-284: the label of an element, seen from the main repository -/
def fullLabel (repo value : Bytes) : Bytes :=
  if repo ≠ [] ∧ value.take 2 = b!"//" then c!"@" :: (repo ++ value) else value

/-- unused_deps/unused_deps.go:288-294 -/
def command (s : StringN) : Command := if hasRuntimeComment s.comments then .move s.value else .remove s.value

/-- unused_deps/unused_deps.go:276-296: one element. `none` is a crash: `buildLabel[:2]` of a shorter string (line 282). -/
def elemCommands (repo pkg : Bytes) (deps : List Bytes) : Expr → Option (List Command)
  | .string s =>
    if repo ≠ [] ∧ s.value.length < 2 ∧ deps ≠ [] then none
    else some ((deps.filter fun dep => Labels.equal (fullLabel repo s.value) dep pkg).map fun _ => command s)
  | _ => some []

/-- unused_deps/unused_deps.go:274-297: all the elements, in order -/
def listCommands (repo pkg : Bytes) (deps : List Bytes) : List Expr → Option (List Command)
  | [] => some []
  | e :: l => match elemCommands repo pkg deps e, listCommands repo pkg deps l with
    | some a, some b => some (a ++ b)
    | _, _ => none

/-- unused_deps/unused_deps.go:265-299 `printCommands`, given the `deps` of the rule. `deps` is the set in the order in which the map is
iterated; Go may take another order for each element, which changes nothing but the order of equal commands. -/
def printCommands (repo pkg : Bytes) (deps : List Bytes) (depsExpr : Expr) : Option (List Command) :=
  listCommands repo pkg deps (Edit.allLists depsExpr).flatten

/-- unused_deps/unused_deps.go:397-409: a target -/
def run (disk : Bytes → Option Jar) (out : Bytes) (params : Option Bytes) (jdeps : Option (List (Kind × Bytes))) (repo pkg : Bytes)
    (depsExpr : Expr) : Option (List Command) :=
  match directDeps disk out params with
  | none => none
  | some deps => printCommands repo pkg (unusedDeps jdeps deps) depsExpr

end Verif.UnusedDeps
