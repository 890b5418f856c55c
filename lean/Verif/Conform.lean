import Verif.Model.Print
/-
Conformance check of the parser and printer models against the golden files of /repo/build/testdata
(not a proof; see DESIGN.md). Run with `lake env lean --run Verif/Conform.lean FILES` in /verif/lean: each file must be
reproduced byte by byte by parsing and printing.
-/
open Verif Verif.Syntax

def conformFileType (path : String) : FileType :=
  let base := (path.splitOn "/").getLast!
  if base.endsWith ".module.golden" || base.endsWith ".module.in" then .module
  else if base.endsWith ".build.golden" || base.endsWith ".build.in" then .build
  else if base.endsWith ".bzl.golden" || base.endsWith ".bzl.in" then .bzl
  else if base.endsWith ".workspace.golden" || base.endsWith ".workspace.in" then .workspace
  else .default

def conformOne (path : String) : IO Bool := do
  let data := (← IO.FS.readBinFile path).toList
  match Lexer.tokens data with
  | .error => IO.println s!"{path}: lexer error"; return false
  | .fuel => IO.println s!"{path}: lexer fuel"; return false
  | .ok ts _ =>
    match Comm.parseFile (ts.length * 40 + 100) (conformFileType path) data with
    | none => IO.println s!"{path}: parse error"; return false
    | some f =>
      match Print.format f with
      | none => IO.println s!"{path}: printer panic"; return false
      | some out =>
        if out == data then return true
        else
          IO.println s!"{path}: differs"
          IO.FS.writeBinFile ("/tmp/conform.out") (ByteArray.mk out.toArray)
          return false

def main (args : List String) : IO Unit := do
  let mut ok := 0
  for a in args do
    if ← conformOne a then ok := ok + 1
  IO.println s!"{ok} of {args.length} reproduced"
