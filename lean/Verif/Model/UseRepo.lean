import Verif.Model.Bzlmod
/-
Model of the commands `use_repo_add` and `use_repo_remove` of /repo/edit/buildozer.go, and of `RemoveEmptyUseRepoCalls` of
/repo/edit/edit.go.
-/
namespace Verif.UseRepo
open Verif Verif.Syntax Verif.Bzlmod

/-- what a command ends with: an error, a panic (index out of range or nil dereference), or a file (edit/buildozer.go:834-880) -/
inductive Out where
  | fails
  | panics
  | done (f : File)

/-- edit/buildozer.go:887-891 `isExtensionLabel` -/
def isExtensionLabel (arg : Bytes) : Bool := hasPrefix arg b!"@" || hasSuffix arg b!"//"

/-- edit/buildozer.go:852-855, 861-864 and 867-880: no proxies are an error; otherwise the calls are changed -/
def useRepoOn (add : Bool) (f : File) (ps repos : List Bytes) : Out :=
  if ps = [] then .fails
  else match editUseRepo add f.stmts ps repos with
    | none => .panics
    | some stmts => .done { f with stmts }

/-- edit/buildozer.go:846-866: which proxies and which repos; `args[0]`, `args[1]` panic if they do not exist -/
def useRepoArgs (add : Bool) (f : File) (dev : Bool) : List Bytes → Out
  | [] => .panics
  | a :: rest =>
    if isExtensionLabel a then
      match rest with
      | [] => .panics
      | name :: repos => useRepoOn add f (proxies f.stmts a name dev) repos
    else useRepoOn add f (allProxies f.stmts a) rest

/-- edit/buildozer.go:834-880 `cmdImplUseRepo` with the mode `use_repo_add` (`add`) or `use_repo_remove` -/
def cmdUseRepo (add : Bool) (f : File) (args : List Bytes) : Out :=
  if f.type ≠ .module then .fails
  else match args with
    | [] => .panics
    | a :: rest =>
      if a = b!"dev" then
        match rest with
        | [] => .panics
        | b :: _ => if isExtensionLabel b then useRepoArgs add f true rest else useRepoArgs add f false args
      else useRepoArgs add f false args

/-- edit/edit.go:227-235 `isEmptyUseRepoCall` -/
def isEmptyUseRepoCall : Expr → Bool
  | .call _ (.ident i) _ l _ _ _ => i.name = b!"use_repo" && l.length = 1
  | _ => false

/-- edit/edit.go:213-225 `RemoveEmptyUseRepoCalls` -/
def removeEmptyUseRepoCalls (f : File) : File :=
  if f.type ≠ .module then f else { f with stmts := f.stmts.filter fun s => !isEmptyUseRepoCall s }

end Verif.UseRepo
