/-
Shared conventions: Go strings are byte lists.
-/
namespace Verif

/-- Go `string` / `[]byte`: a finite sequence of bytes. -/
abbrev Bytes := List UInt8

/-- `b!"text"`: the UTF-8 bytes of a string literal, as an explicit list literal (so that the kernel
can compute with it). -/
syntax:max "b!" noWs str : term

macro_rules
  | `(b!$s:str) => do
    let bytes := s.getString.toUTF8.toList
    let elems : Array (Lean.TSyntax `term) :=
      (bytes.map fun b => Lean.Syntax.mkNumLit (toString b.toNat)).toArray
    `(([ $elems,* ] : List UInt8))

/-- `c!"x"`: one ASCII byte. -/
syntax:max "c!" noWs str : term

macro_rules
  | `(c!$s:str) => do
    match s.getString.toUTF8.toList with
    | [b] => `(($(Lean.Syntax.mkNumLit (toString b.toNat)) : UInt8))
    | _ => Lean.Macro.throwError "c! expects exactly one byte"

/-- Lift a decidable statement checked by the kernel on all 256 bytes. -/
theorem forall_byte {P : UInt8 → Prop} (h : ∀ i : Fin 256, P (UInt8.ofNat i.val)) : ∀ b : UInt8, P b := by
  intro b
  have := h ⟨b.toNat, b.toNat_lt⟩
  simpa using this

end Verif
