import Verif.Model.Labels
import Verif.Model.Wspace
import Verif.Model.Buildifier
/-
Model of how the tools find files: the build file of a label (/repo/edit/edit.go, /repo/edit/buildozer.go), the pattern `...`
(/repo/edit/buildozer.go) and `buildifier -r` (/repo/buildifier/utils/utils.go).

The file system is a value that does not change. Paths are cleaned: `filepath.Join` is `join` below; `filepath.FromSlash` does nothing.
-/
namespace Verif.Files
open Verif Verif.Wspace

/-- Go `filepath.Join` (and `path.Join`) of two cleaned paths -/
def join (a b : Bytes) : Bytes :=
  if a = [] then b
  else if b = [] ∨ b = b!"." then a
  else if a = b!"." then b
  else if a = b!"/" then c!"/" :: b
  else a ++ c!"/" :: b

/-! ### the build file of a label -/

/-- edit/buildozer.go:1107 `BuildFileNames` -/
def buildFileNames : List Bytes := [b!"BUILD.bazel", b!"BUILD", b!"BUCK"]

/-- edit/edit.go:69-76 and 85-95: the build file of a directory. `regular` is `wspace.IsRegularFile`. -/
def buildFileIn (regular : Bytes → Bool) (dir : Bytes) : Bytes :=
  match (buildFileNames.map (join dir)).find? regular with
  | some f => f
  | none => join dir b!"BUILD"

/-- wspace/workspace.go:121-149 `FindRepoBuildFiles`, given the names and the attribute `build_file` of the rules of each kind, in order; a
later rule overwrites an earlier one. The parsed file is a parameter: `none` if there is no WORKSPACE file or it cannot be parsed. -/
def repoBuildFile (root : Bytes) (rules : Option (Bytes → List (Bytes × Bytes))) (repo : Bytes) : Option Bytes :=
  match rules with
  | none => none
  | some r =>
    (((([b!"git_repository", b!"new_local_repository", b!"new_git_repository", b!"new_http_archive"].flatMap r).filter
      (fun q => q.2 ≠ [])).reverse.find? (fun q => q.1 = repo)).map fun q => join root (replaceByte c!":" c!"/" q.2))

/-- the result of `InterpretLabelForWorkspaceLocation` (edit/edit.go:44) -/
structure Interpreted where
  buildFile : Bytes
  repo : Bytes
  pkg : Bytes
  rule : Bytes
deriving DecidableEq, Repr

/-- edit/edit.go:44-99 `InterpretLabelForWorkspaceLocation`; `root` and `rest` are the result of `FindWorkspaceRoot` -/
def interpret (regular : Bytes → Bool) (rules : Option (Bytes → List (Bytes × Bytes))) (root rest target : Bytes) : Interpreted :=
  let label := Labels.parse target
  if label.repository ≠ [] then
    ⟨(repoBuildFile root rules label.repository).getD [], label.repository, label.package, label.target⟩
  else if hasPrefix target b!"//" then
    let pkgPath := join root label.package
    if regular pkgPath then ⟨pkgPath, [], pathDir label.package, label.target⟩
    else ⟨buildFileIn regular pkgPath, [], label.package, label.target⟩
  else if regular label.package then ⟨label.package, [], join rest (pathDir label.package), label.target⟩
  else ⟨buildFileIn regular label.package, [], join rest label.package, label.target⟩

/-- edit/buildozer.go:1146-1151: the name without a build file name at its end -/
def stripName (name : Bytes) : List Bytes → Bytes
  | [] => name
  | s :: l => if hasSuffix name (c!"/" :: s) then name.take (name.length - s.length) else stripName name l

/-- edit/buildozer.go:1145-1163: the file that is read and written for a name; `none` if there is no readable one -/
def opened (readable : Bytes → Bool) (name : Bytes) : Option Bytes :=
  let dir := stripName name buildFileNames
  match (buildFileNames.map (dir ++ ·)).find? readable with
  | some f => some f
  | none => if readable dir then some dir else none

/-! ### directories -/

mutual
/-- An entry of the file system as `os.Lstat` sees it: a file, a symbolic link (to a directory or not), a directory whose entries can be
listed or not (used by edit/buildozer.go:1303-1319 and buildifier/utils/utils.go:55-77). -/
inductive Node where
  | file
  | link (toDir : Bool)
  | dir (readable : Bool) (entries : Entries)
/-- the entries of a directory, in the order of `os.ReadDir` (edit/buildozer.go:1303) -/
inductive Entries where
  | nil
  | cons (name : Bytes) (node : Node) (rest : Entries)
end

/-- `dirFile.IsDir()` (edit/buildozer.go:1309) -/
def Node.isDir : Node → Bool
  | .dir .. => true
  | _ => false

/-- edit/buildozer.go:1308-1310: the directories of a directory -/
def subdirs (path : Bytes) : Entries → List (Bytes × Node)
  | .nil => []
  | .cons name node rest => if node.isDir then (join path name, node) :: subdirs path rest else subdirs path rest

/-- edit/buildozer.go:1308, 1311-1317: the build files of a directory -/
def buildFilesOf (path : Bytes) : Entries → List Bytes
  | .nil => []
  | .cons name node rest =>
    (if node.isDir then [] else (buildFileNames.filter fun b => name = b).map fun _ => join path name) ++ buildFilesOf path rest

/-- edit/buildozer.go:1294-1322 `findBuildFiles`: the loop. The stack has its top at the front (Go: at the end). The number is a recursion
budget: each step takes a directory off the stack. -/
def searchFiles : Nat → List (Bytes × Node) → List Bytes
  | 0, _ => []
  | _ + 1, [] => []
  | n + 1, (path, node) :: stack =>
    match node with
    | .dir true es => buildFilesOf path es ++ searchFiles n ((subdirs path es).reverse ++ stack)
    | _ => searchFiles n stack

mutual
/-- the number of directories (the budget of `searchFiles`, edit/buildozer.go:1298) -/
def dirs : Node → Nat
  | .dir _ es => 1 + dirsL es
  | _ => 0
/-- the number of directories below a directory -/
def dirsL : Entries → Nat
  | .nil => 0
  | .cons _ node rest => dirs node + dirsL rest
end

/-- edit/buildozer.go:1294-1322 `findBuildFiles`; `node` is what is found at the path, links followed -/
def findBuildFiles (path : Bytes) (node : Node) : List Bytes := searchFiles (dirs node + 2) [(path, node)]

/-- edit/buildozer.go:1275-1291 `targetExpressionToBuildFiles`, for an absolute file name; `tree` is what is found at a path, links
followed. `filepath.Join("", "...", "BUILD")` has no slash in front. What is left of the name ends in a slash, which `filepath.Join` drops in
every name made from it; here it is dropped at once. -/
def targetFiles (tree : Bytes → Node) (file : Bytes) : List Bytes :=
  if hasSuffix file b!".../BUILD" then
    let dir := file.take (file.length - 9)
    let dir := if hasSuffix dir b!"/" then dir.dropLast else dir
    findBuildFiles dir (tree dir)
  else [file]

/-! ### buildifier -r -/

mutual
/-- `filepath.Walk` with the callback in buildifier/utils/utils.go:62-74: `none` is an error, which a directory that cannot be listed
causes before its name is looked at -/
def walk (path name : Bytes) : Node → Option (List Bytes)
  | .file => some (if Buildifier.isStarlarkFile name then [path] else [])
  | .link _ => some (if Buildifier.isStarlarkFile name then [path] else [])
  | .dir readable es => if !readable then none else if name = b!".git" then some [] else walkEntries path es
/-- the entries of a directory (buildifier/utils/utils.go:62-74) -/
def walkEntries (path : Bytes) : Entries → Option (List Bytes)
  | .nil => some []
  | .cons name node rest =>
    match walk (join path name) name node, walkEntries path rest with
    | some a, some b => some (a ++ b)
    | _, _ => none
end

/-- `os.Stat(arg).IsDir()`, which follows links (buildifier/utils/utils.go:56-60) -/
def Node.statDir : Node → Bool
  | .dir .. => true
  | .link d => d
  | .file => false

/-- buildifier/utils/utils.go:52-78 `ExpandDirectories`: each argument with what `os.Lstat` finds, `none` if there is nothing (also if it is a
link to nothing) -/
def expand : List (Bytes × Option Node) → Option (List Bytes)
  | [] => some []
  | (_, none) :: _ => none
  | (arg, some node) :: l =>
    match (if node.statDir then walk arg (pathBase arg) node else some [arg]), expand l with
    | some a, some b => some (a ++ b)
    | _, _ => none

end Verif.Files
