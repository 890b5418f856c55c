import Verif.Model.Strings
/-
Model of /repo/labels/labels.go.
-/
namespace Verif.Labels
open Verif

/-- labels/labels.go:27-31 `Label`. -/
structure Label where
  repository : Bytes
  package : Bytes
  target : Bytes
deriving DecidableEq, Repr

/-- labels/labels.go:36-52 `Label.Format`. -/
def format (l : Label) : Bytes :=
  let repo := if l.repository ≠ [] then c!"@" :: l.repository else []
  if l.repository = l.target ∧ l.package = [] then repo
  else
    repo ++ b!"//" ++ l.package ++ (if l.target ≠ pathBase l.package then c!":" :: l.target else [])

/-- labels/labels.go:56-62 `Label.FormatRelative`. -/
def formatRelative (l : Label) (pkg : Bytes) : Bytes :=
  if l.repository ≠ [] ∨ pkg ≠ l.package then format l else c!":" :: l.target

/-- labels/labels.go:77-92: `Parse` once the repository has been split off. -/
def parseNoRepo (repo target : Bytes) : Label :=
  let parts := split2 c!":" target
  let p0 := trimPrefix parts.1 b!"//"
  match parts.2 with
  | some t =>
    if t ≠ [] then ⟨repo, p0, t⟩
    else if !hasPrefix target b!"//" then ⟨repo, [], target⟩
    else ⟨repo, p0, pathBase p0⟩
  | none =>
    if !hasPrefix target b!"//" then ⟨repo, [], target⟩
    else ⟨repo, p0, pathBase p0⟩

/-- labels/labels.go:66-93 `Parse`. -/
def parse (target : Bytes) : Label :=
  if hasPrefix target b!"@" then
    let target := trimLeft c!"@" target
    match split2 c!"/" target with
    | (_, none) => ⟨target, [], target⟩
    | (repo, some rest) => parseNoRepo repo (c!"/" :: rest)
  else parseNoRepo [] target

/-- labels/labels.go:96-101 `ParseRelative`. -/
def parseRelative (input pkg : Bytes) : Label :=
  if !hasPrefix input b!"@" && !hasPrefix input b!"//" then ⟨[], pkg, trimLeft c!":" input⟩
  else parse input

/-- labels/labels.go:106-114 `Shorten`. -/
def shorten (input pkg : Bytes) : Bytes :=
  if !hasPrefix input b!"//" && !hasPrefix input b!"@" then input
  else formatRelative (parse input) pkg

/-- labels/labels.go:119-121 `Equal`. -/
def equal (label1 label2 pkg : Bytes) : Bool := parseRelative label1 pkg = parseRelative label2 pkg

end Verif.Labels
