import Verif.Model.Strings
import Verif.Model.Sort
/-
Model of /repo/wspace/workspace.go. Paths are Unix paths; `filepath.Dir` and `filepath.Join` are modelled on cleaned paths (no `//`, `.`,
`..` or trailing slash), which is what `filepath.Abs` and `os.Getwd` return; `filepath.Rel` where the base is an ancestor of the target.
-/
namespace Verif.Wspace
open Verif

/-- What the code looks at of an `os.FileInfo`: workspace.go:46-48 `isFile`, `isExecutable` -/
structure Info where
  isFile : Bool
  isExecutable : Bool

/-- result of `os.Stat`; `err` is any error other than that the file does not exist (workspace.go:109) -/
inductive Stat where
  | ok (i : Info)
  | notExist
  | err (e : Nat)

/-- workspace.go:54-61 `repoRootFiles` -/
def repoRootFiles : List (Bytes × (Info → Bool)) :=
  [(b!"WORKSPACE", Info.isFile), (b!"WORKSPACE.bazel", Info.isFile), (b!"MODULE.bazel", Info.isFile), (b!"REPO.bazel", Info.isFile),
    (b!".buckconfig", Info.isFile), (b!"pants", fun i => i.isFile && i.isExecutable)]

/-- workspace.go:63-66 `packageRootFiles` -/
def packageRootFiles : List (Bytes × (Info → Bool)) := [(b!"BUILD", Info.isFile), (b!"BUILD.bazel", Info.isFile)]

/-- Go `filepath.Dir`, on cleaned paths -/
def pathDir (p : Bytes) : Bytes :=
  if c!"/" ∈ p then
    let d := p.take (p.length - (afterLast c!"/" p).length - 1)
    if d = [] then b!"/" else d
  else b!"."

/-- Go `filepath.Join(dir, file)`, on cleaned paths -/
def pathJoin (dir file : Bytes) : Bytes := dir ++ c!"/" :: file

/-- the result of `Find`: `none` for `os.ErrNotExist` (workspace.go:95-116) -/
inductive Found where
  | dir (d : Bytes)
  | notExist
  | err (e : Nat)
deriving DecidableEq, Repr

/-- workspace.go:107-114: the loop over the files in one directory; `none` if it ends -/
def findHere (stat : Bytes → Stat) (dir : Bytes) : List (Bytes × (Info → Bool)) → Option Found
  | [] => none
  | (file, ok) :: l =>
    match stat (pathJoin dir file) with
    | .ok i => if ok i then some (.dir dir) else findHere stat dir l
    | .notExist => findHere stat dir l
    | .err e => some (.err e)

/-- workspace.go:95-116 `Find`; the number bounds the recursion (the path gets shorter). `rootFiles` is the map in any order. -/
def find (stat : Bytes → Stat) (rootFiles : List (Bytes × (Info → Bool))) : Nat → Bytes → Found
  | 0, _ => .notExist
  | n + 1, dir =>
    if dir = [] ∨ dir = b!"/" ∨ dir = b!"." ∨ (dir.length = 3 ∧ hasSuffix dir b!":\\") then .notExist
    else match findHere stat dir (sortBy (fun a b => strLess a.1 b.1) rootFiles) with
      | some r => r
      | none => find stat rootFiles n (pathDir dir)

/-- workspace.go:79-91 `FindWorkspaceRoot`, where the working directory is `wd` -/
def findWorkspaceRoot (stat : Bytes → Stat) (wd : Bytes) : Bytes × Bytes :=
  match find stat repoRootFiles (wd.length + 1) wd with
  | .dir root => if wd.length = root.length then (root, []) else (root, wd.drop (root.length + 1))
  | _ => ([], [])

/-- workspace.go:154-163 `relPath`, if `base` is `target` or an ancestor; otherwise `none` -/
def relPath (base target : Bytes) : Option Bytes :=
  if target = base then some []
  else if hasPrefix target (base ++ b!"/") then some (target.drop (base.length + 1))
  else none

/-- workspace.go:170-191 `SplitFilePath` -/
def splitFilePath (stat : Bytes → Stat) (filename : Bytes) : Bytes × Bytes × Bytes :=
  let dir := pathDir filename
  match find stat repoRootFiles (dir.length + 1) dir with
  | .dir workspaceRoot =>
    let packageRoot := match find stat packageRootFiles (dir.length + 1) dir with
      | .dir p => if hasPrefix p workspaceRoot then p else workspaceRoot
      | _ => workspaceRoot
    match relPath workspaceRoot packageRoot with
    | none => ([], [], [])
    | some pkg => match relPath packageRoot filename with
      | none => ([], [], [])
      | some label => (workspaceRoot, pkg, label)
  | _ => ([], [], [])

end Verif.Wspace
