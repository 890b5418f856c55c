import Verif.Proofs.SpanComm
/-
C97: the positions in the syntax tree of a parsed file.
-/
namespace Verif.Props.Spans
open Verif Verif.Syntax Verif.Lexer Verif.Props.Lexer Verif.Parser Verif.Grammar Verif.Props.Grammar Verif.Comm

theorem parse_body {ts : List Tok} {v : Val} {text : Bytes} {lo hi : Nat} (h : Deriv (.n .file) ts v) (hs : Seg text lo ts hi) (hi' : IndB ts) :
    Body text lo v.exprs hi := deriv_induct (SpG text) spn_all h lo hi hs hi'

/-- **C97.** In the tree of a parsed file (a file that does not end with a backslash) the statements lie within the text one after
the other, and every node keeps the positions of its own tokens and has its children, one after the other, within its span. (`data ++
[10]`: the lexer reads a final newline.) -/
theorem C97_spans (fuel : Nat) (type : FileType) (data : Bytes) (f : File) (hd : data.getLast? ≠ some 92)
    (h : parseFile fuel type data = some f) :
    InOrder 0 f.stmts (data.length + 1) ∧ ∀ s ∈ f.stmts, Nested (data ++ [10]) s := by
  unfold parseFile at h
  cases ht : tokens data with
  | ok ts st =>
    rw [ht] at h
    dsimp only at h
    cases hr : run fuel (initCfg ts) with
    | none => rw [hr] at h; cases h
    | some l =>
      rw [hr] at h
      cases h
      obtain ⟨_, v, hv, rfl⟩ := C60_sound fuel data ts st l ht hr
      obtain ⟨cs, h1, h2⟩ := C48_tiles data ts st ht
      have hb : Body (data ++ [10]) 0 v.exprs (data ++ [10]).length := parse_body hv (tiled_seg h1 rfl) (fun a t u b e k => Round.tokens_block ht hd a t u b e k)
      have ha := assign_ok (text := data ++ [10]) v.exprs st.suffixComments st.lineComments
      have hl : (data ++ [10]).length = data.length + 1 := by simp
      rw [hl] at hb
      exact ⟨ha.1 hb.order, ha.2 hb.nested⟩
  | _ => rw [ht] at h; cases h

/-- `x` is `e` or a node somewhere below it -/
inductive Below (e : Expr) : Expr → Prop
  | self : Below e e
  | kid {x y} : Below e x → y ∈ kids x → Below e y

theorem Below.nested {text : Bytes} {e x : Expr} (h : Below e x) (hn : Nested text e) : Nested text x := by
  induction h with
  | self => exact hn
  | kid _ hk ih => exact ih.kid _ hk

theorem order_mem {lo hi : Nat} {l : List Expr} (h : InOrder lo l hi) {x : Expr} (hx : x ∈ l) :
    lo ≤ x.startPos.byte ∧ x.startPos.byte ≤ x.endPos.byte ∧ x.endPos.byte ≤ hi := by
  induction l generalizing lo with
  | nil => cases hx
  | cons y l ih =>
    obtain ⟨a, b, c⟩ := h
    rcases List.mem_cons.1 hx with rfl | hx
    · exact ⟨a, b, c.le⟩
    · have := ih c hx
      exact ⟨by omega, this.2⟩

theorem Below.span {text : Bytes} {e x : Expr} (h : Below e x) (hn : Nested text e) :
    e.startPos.byte ≤ x.startPos.byte ∧ x.startPos.byte ≤ x.endPos.byte ∧ x.endPos.byte ≤ e.endPos.byte := by
  induction h with
  | self => exact ⟨Nat.le_refl _, hn.span, Nat.le_refl _⟩
  | kid hb hk ih =>
    have := order_mem (hb.nested hn).order hk
    omega

/-- **C97.** Every node lies within its statement and within the text, and no node ends before it starts. -/
theorem C97_within (fuel : Nat) (type : FileType) (data : Bytes) (f : File) (hd : data.getLast? ≠ some 92)
    (h : parseFile fuel type data = some f) (s x : Expr) (hs : s ∈ f.stmts) (hx : Below s x) :
    s.startPos.byte ≤ x.startPos.byte ∧ x.startPos.byte ≤ x.endPos.byte ∧ x.endPos.byte ≤ s.endPos.byte ∧ s.endPos.byte ≤ data.length + 1 := by
  obtain ⟨h1, h2⟩ := C97_spans fuel type data f hd h
  have h3 := hx.span (h2 s hs)
  have h4 := order_mem h1 hs
  omega

theorem order_pair {lo hi : Nat} {l a b c : List Expr} {x y : Expr} (h : InOrder lo l hi) (hl : l = a ++ x :: (b ++ y :: c)) :
    x.endPos.byte ≤ y.startPos.byte := by
  subst hl
  obtain ⟨m, _, h2⟩ := h.split
  exact (order_mem h2.2.2 (by simp : y ∈ b ++ y :: c)).1

/-- **C97.** Two children of a node do not overlap: the first one ends before the second one starts. -/
theorem C97_disjoint (fuel : Nat) (type : FileType) (data : Bytes) (f : File) (hd : data.getLast? ≠ some 92)
    (h : parseFile fuel type data = some f) :
    (∀ a x b y c, f.stmts = a ++ x :: (b ++ y :: c) → x.endPos.byte ≤ y.startPos.byte) ∧
      ∀ s ∈ f.stmts, ∀ e, Below s e → ∀ a x b y c, kids e = a ++ x :: (b ++ y :: c) → x.endPos.byte ≤ y.startPos.byte := by
  obtain ⟨h1, h2⟩ := C97_spans fuel type data f hd h
  exact ⟨fun a x b y c hl => order_pair h1 hl, fun s hs e he a x b y c hl => order_pair (he.nested (h2 s hs)).order hl⟩

theorem at_start {text : Bytes} {p : Pos} {s : Bytes} (h : At text p s) : ∃ pre post, text = pre ++ post ∧ p = posAt pre := by
  obtain ⟨pre, post, h1, h2⟩ := h
  exact ⟨pre, s ++ post, by rw [h1]; simp, h2⟩

theorem nested_start {text : Bytes} {e : Expr} (h : Nested text e) : ∃ pre post, text = pre ++ post ∧ e.startPos = posAt pre := by
  induction h with
  | mk e hl _ _ hk' =>
    cases e with
    | nil => exact hl.elim
    | file c l => exact hl.elim
    | commentBlock c p => exact at_start hl
    | ident n => exact at_start hl
    | typedIdent c i t => exact hk' (.ident i) (List.mem_cons_self ..)
    | branch c t p => exact at_start hl
    | literal c p t => obtain ⟨a, b, _, _, h⟩ := hl; exact at_start h
    | string n => exact at_start hl.1
    | call c x p l e a b => exact hk' x (List.mem_cons_self ..)
    | dot c x p q n => exact hk' x (List.mem_cons_self ..)
    | compr c cu p b cl f e =>
      cases cu with
      | true => exact at_start hl.1
      | false => exact at_start hl.1
    | forClause c p v q x => exact at_start hl.1
    | ifClause c p x => exact at_start hl
    | keyValue c k p v => exact hk' k (List.mem_cons_self ..)
    | dict c p l e f => exact at_start hl.1
    | list c p l e f => exact at_start hl.1
    | set c p l e f => exact at_start hl.1
    | tuple c nb p l e a b =>
      cases nb with
      | true =>
        obtain ⟨x, r, rfl⟩ := ne_cons (show l ≠ [] from hl)
        exact hk' x (List.mem_cons_self ..)
      | false => exact at_start hl.1
    | unary c p o x => exact at_start hl.1
    | binary c x p o l y => exact hk' x (List.mem_cons_self ..)
    | assign c x p o l y => exact hk' x (List.mem_cons_self ..)
    | paren c p x e f => exact at_start hl.1
    | slice c x p f c1 t c2 s e => exact hk' x (List.mem_cons_self ..)
    | index c x p y e => exact hk' x (List.mem_cons_self ..)
    | lambda c p ps b => exact at_start hl.1
    | cond c t p te q e => exact hk' t (List.mem_cons_self ..)
    | load c p m fs ts r b => exact at_start hl.1
    | defS c p n ps b q a d t => exact at_start hl.1
    | returnS c p r => exact at_start hl
    | forS c p v x b => exact at_start hl.1
    | ifS c p x t e f => exact hl.1.elim at_start (fun h => h.elim at_start at_start)

/-- **C97.** The start of every node is a place in the text: its line, column and byte are those of the text before it. -/
theorem C97_start (fuel : Nat) (type : FileType) (data : Bytes) (f : File) (hd : data.getLast? ≠ some 92)
    (h : parseFile fuel type data = some f) (s x : Expr) (hs : s ∈ f.stmts) (hx : Below s x) :
    ∃ pre post, data ++ [10] = pre ++ post ∧ x.startPos = posAt pre :=
  nested_start (hx.nested ((C97_spans fuel type data f hd h).2 s hs))

/-- a file with comments, nested blocks and an `elif` chain -/
def sample : Bytes := b!"# top\ndef f(a, *, b = [1, 2.5]):\n    # in\n    if a not in b:  # s\n        return -x\n    elif y:\n        pass\n        # t\n      # e\n# out\nz, w = (f(1)[2:], {})\n"

/-- The hypotheses are met: the statements of the sample and their children (parameters, the `if` chain, the comment after it; the
tuples on both sides of the assignment). -/
theorem C97_example : sample.getLast? ≠ some 92 ∧
    ((parseFile 1000 .bzl sample).map fun f => f.stmts.map fun e =>
      ((e.startPos.byte, e.endPos.byte), (kids e).map fun k => (k.startPos.byte, k.endPos.byte))) =
      some [((6, 127), [(12, 13), (15, 15), (18, 30), (46, 108), (127, 127)]), ((137, 158), [(137, 141), (144, 158)])] := by
  decide +kernel

/-- The hypothesis on the last byte is needed: the definition in this file has an empty body and no end (Go panics when asked for it). -/
theorem C97_backslash : ((parseFile 400 .bzl b!"def f():\n  \\").map fun f => f.stmts.map fun e => (e.endPos, (kids e).length)) =
    some [({}, 0)] := by
  decide +kernel

end Verif.Props.Spans
