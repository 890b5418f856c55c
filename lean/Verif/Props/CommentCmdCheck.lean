import Verif.Props.CommentCmd
import Verif.Model.Print
/-
C100: examples, and what happens to the comment of an attribute when the file is written and read again.
-/
namespace Verif.CommentCommand
open Verif Verif.Syntax Verif.Edit Verif.Cmd

/-- a command on the call that is the first statement of a file; the file as buildozer prints it (`none`: no call) -/
def onFirst (cmd : Cmd.St → Option Res) (data : Bytes) : Option Bytes :=
  (Comm.parseFile 2000 .build data).bind fun f =>
    match f.stmts with
    | .call c x ls l e fc fm :: rest =>
      (cmd ⟨c, x, l, []⟩).bind fun r => Print.format { f with stmts := .call r.st.comments r.st.fn ls r.st.args e fc fm :: rest }
    | _ => none

/-- the comment of a rule is replaced -/
example : onFirst (cmdComment false b!"p" [b!"new\\nlines"]) b!"# old\nr(\n    name = \"a\",\n)  # kept\n" =
    some b!"# new\n# lines\nr(\n    name = \"a\",\n)  # kept\n" := by decide +kernel

/-- the comment of a value, found by its label in a select -/
example : onFirst (cmdComment true b!"p" [b!"deps", b!"//p:b", b!"new"]) b!"r(\n    deps = [\"a\"] + select({\n        \"c\": [\n            # kept\n            \":b\",  # old\n        ],\n    }),\n)\n" =
    some b!"r(\n    deps = [\"a\"] + select({\n        \"c\": [\n            # kept\n            \":b\",  # new\n        ],\n    }),\n)\n" := by
  decide +kernel

/-- comments of a value are removed -/
example : onFirst (cmdRemoveComment b!"p" [b!"deps", b!"//p:b"]) b!"r(\n    deps = [\n        # kept\n        \"a\",\n        # old\n        \":b\",  # old\n    ],\n)\n" =
    some b!"r(\n    deps = [\n        # kept\n        \"a\",\n        \":b\",\n    ],\n)\n" := by decide +kernel

/-- **C100** Finding: a comment given to an attribute does not replace the one that stands there in the file: the two are joined. -/
theorem C100_attribute_joined :
    onFirst (cmdComment false b!"p" [b!"deps", b!"one"]) b!"r(\n    deps = [],\n)\n" = some b!"r(\n    # one\n    deps = [],\n)\n" ∧
    onFirst (cmdComment false b!"p" [b!"deps", b!"two"]) b!"r(\n    # one\n    deps = [],\n)\n" = some b!"r(\n    # one\n    # two\n    deps = [],\n)\n" :=
  ⟨by decide +kernel, by decide +kernel⟩

/-- the hypotheses of `C100_read_back_value` can be met -/
example : ∃ (st : Cmd.St) (pre : List Expr) (c : Comments) (i : IdentN) (p : Pos) (o : Bytes) (lb : Bool) (r : Expr) (post : List Expr), FirstDef b!"deps" st.args pre c i p o lb r post ∧
    (∃ s e1, Element s s r e1 ∧ Labels.equal s.value b!"//p:b" b!"p" = true) ∧
    (∀ s e1, Element s s r e1 → Labels.equal s.value b!"//p:b" b!"p" = true → s.comments.suffix = []) := by
  let s : StringN := { value := b!":b" }
  refine ⟨⟨{}, .nil, [.assign {} (.ident { name := b!"deps" }) {} b!"=" false (.list {} {} [.string s] {} false)], []⟩,
    [], _, _, _, _, _, _, [], ⟨rfl, rfl, fun _ _ _ _ _ _ h => by cases h⟩, ⟨s, _, .list (a := []) (b := []) .self, by decide +kernel⟩, ?_⟩
  intro s' e1 h _
  have := (mem_lists _ s').mpr ⟨e1, h⟩
  simp [allLists, allListsFromSelects, allSelects] at this
  rw [this]

end Verif.CommentCommand
