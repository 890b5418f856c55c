import Verif.Props.SpanSpec
import Verif.Proofs.Deriv
/-
C97: tokens and their segments, and the spans of the nodes built by the actions for expressions.
-/
namespace Verif.Props.Spans
open Verif Verif.Syntax Verif.Lexer Verif.Props.Lexer Verif.Parser Verif.Grammar Verif.Props.Grammar

theorem add_byte (p : Pos) (s : Bytes) : (p.add s).byte = p.byte + s.length := by
  unfold Pos.add; dsimp only; split <;> rfl

theorem at_prefix {text : Bytes} {p : Pos} {a b : Bytes} (h : At text p (a ++ b)) : At text p a := by
  obtain ⟨pre, post, h1, h2⟩ := h
  exact ⟨pre, b ++ post, by rw [h1]; simp, h2⟩

/-! ### Order -/

theorem InOrder.le {lo hi : Nat} {l : List Expr} (h : InOrder lo l hi) : lo ≤ hi := by
  induction l generalizing lo with
  | nil => exact h
  | cons x l ih => obtain ⟨a, b, c⟩ := h; have := ih c; omega

theorem InOrder.mono {lo lo' hi hi' : Nat} {l : List Expr} (h : InOrder lo l hi) (h1 : lo' ≤ lo) (h2 : hi ≤ hi') :
    InOrder lo' l hi' := by
  induction l generalizing lo lo' with
  | nil => exact Nat.le_trans h1 (Nat.le_trans h h2)
  | cons x l ih => obtain ⟨a, b, c⟩ := h; exact ⟨Nat.le_trans h1 a, b, ih c (Nat.le_refl _)⟩

theorem InOrder.append {lo m hi : Nat} {a b : List Expr} (h1 : InOrder lo a m) (h2 : InOrder m b hi) : InOrder lo (a ++ b) hi := by
  induction a generalizing lo with
  | nil => exact h2.mono h1 (Nat.le_refl _)
  | cons x a ih => obtain ⟨p, q, r⟩ := h1; exact ⟨p, q, ih r⟩

theorem InOrder.split {lo hi : Nat} {a b : List Expr} (h : InOrder lo (a ++ b) hi) : ∃ m, InOrder lo a m ∧ InOrder m b hi := by
  induction a generalizing lo with
  | nil => exact ⟨lo, Nat.le_refl _, h⟩
  | cons x a ih =>
    obtain ⟨p, q, r⟩ := h
    obtain ⟨m, h1, h2⟩ := ih r
    exact ⟨m, ⟨p, q, h1⟩, h2⟩

theorem InOrder.last {lo hi : Nat} {l : List Expr} (h : InOrder lo l hi) (hl : l ≠ []) :
    InOrder lo l (endPosLast l).byte ∧ (endPosLast l).byte ≤ hi := by
  induction l generalizing lo with
  | nil => exact absurd rfl hl
  | cons x l ih =>
    obtain ⟨p, q, r⟩ := h
    cases l with
    | nil => exact ⟨⟨p, q, Nat.le_refl _⟩, r⟩
    | cons y l =>
      have := ih r (by simp)
      exact ⟨⟨p, q, this.1⟩, this.2⟩

/-! ### One node -/

theorem Nested.span {text : Bytes} {e : Expr} (h : Nested text e) : e.startPos.byte ≤ e.endPos.byte := by
  cases h with
  | mk _ _ h _ => exact h.le

theorem Nested.notNil {text : Bytes} {e : Expr} (h : Nested text e) : e.isNil = false := by
  cases h with
  | mk _ h _ _ => cases e <;> first | rfl | exact h.elim

theorem Nested.located {text : Bytes} {e : Expr} (h : Nested text e) : Located text e := by cases h; assumption
theorem Nested.order {text : Bytes} {e : Expr} (h : Nested text e) : InOrder e.startPos.byte (kids e) e.endPos.byte := by
  cases h; assumption
theorem Nested.kid {text : Bytes} {e : Expr} (h : Nested text e) : ∀ k ∈ kids e, Nested text k := by cases h; assumption

/-- statements with a body -/
def isBlock : Expr → Bool
  | .defS .. | .forS .. | .ifS .. => true
  | _ => false

/-- an expression (or simple statement) that lies between `lo` and `hi` and has no comments yet -/
structure Ex (text : Bytes) (lo : Nat) (e : Expr) (hi : Nat) : Prop where
  lo : lo ≤ e.startPos.byte
  hi : e.endPos.byte ≤ hi
  nested : Nested text e
  after : e.comments.after = []
  simple : isBlock e = false

theorem Ex.le {text lo e hi} (h : Ex text lo e hi) : lo ≤ hi := by
  have := h.nested.span; have := h.lo; have := h.hi; omega

theorem Ex.mono {text lo e hi lo' hi'} (h : Ex text lo e hi) (h1 : lo' ≤ lo) (h2 : hi ≤ hi') : Ex text lo' e hi' :=
  ⟨Nat.le_trans h1 h.lo, Nat.le_trans h.hi h2, h.nested, h.after, h.simple⟩

/-- expressions one after the other -/
inductive Exs (text : Bytes) : Nat → List Expr → Nat → Prop
  | nil {lo hi} : lo ≤ hi → Exs text lo [] hi
  | cons {lo x m l hi} : Ex text lo x m → Exs text m l hi → Exs text lo (x :: l) hi

theorem Exs.le {text lo l hi} (h : Exs text lo l hi) : lo ≤ hi := by
  induction h with
  | nil h => exact h
  | cons h _ ih => have := h.le; omega

theorem Exs.mono {text lo l hi lo' hi'} (h : Exs text lo l hi) (h1 : lo' ≤ lo) (h2 : hi ≤ hi') : Exs text lo' l hi' := by
  induction h generalizing lo' with
  | nil h => exact .nil (by omega)
  | cons h _ ih => exact .cons (h.mono h1 (Nat.le_refl _)) (ih (Nat.le_refl _) h2)

theorem Exs.append {text lo a m b hi} (h1 : Exs text lo a m) (h2 : Exs text m b hi) : Exs text lo (a ++ b) hi := by
  induction h1 with
  | nil h => exact h2.mono h (Nat.le_refl _)
  | cons h _ ih => exact .cons h (ih h2)

theorem Exs.one {text lo x hi} (h : Ex text lo x hi) : Exs text lo [x] hi := .cons h (.nil (Nat.le_refl _))

theorem Exs.snoc {text lo a m x hi} (h1 : Exs text lo a m) (h2 : Ex text m x hi) : Exs text lo (a ++ [x]) hi :=
  h1.append (.one h2)

theorem Exs.order {text lo l hi} (h : Exs text lo l hi) : InOrder lo l hi := by
  induction h with
  | nil h => exact h
  | cons h _ ih => exact ⟨h.lo, h.nested.span, ih.mono h.hi (Nat.le_refl _)⟩

theorem Exs.nested {text lo l hi} (h : Exs text lo l hi) : ∀ x ∈ l, Nested text x := by
  induction h with
  | nil h => exact nofun
  | cons h _ ih =>
    intro x hx
    rcases List.mem_cons.1 hx with rfl | hx
    · exact h.nested
    · exact ih x hx

/-- an optional expression -/
def ExO (text : Bytes) (lo : Nat) (e : Expr) (hi : Nat) : Prop := lo ≤ hi ∧ (e = .nil ∨ Ex text lo e hi)

theorem ExO.exs {text lo e hi} (h : ExO text lo e hi) : Exs text lo (opt e) hi := by
  obtain ⟨h1, rfl | h2⟩ := h
  · exact .nil h1
  · have := h2.nested.notNil
    simp only [opt, this, Bool.false_eq_true, if_false]
    exact .one h2

theorem ExO.none {text lo hi} (h : lo ≤ hi) : ExO text lo .nil hi := ⟨h, .inl rfl⟩
theorem ExO.some {text lo e hi} (h : Ex text lo e hi) : ExO text lo e hi := ⟨h.le, .inr h⟩

/-- putting a node together -/
theorem Ex.mk' {text : Bytes} {lo hi : Nat} {e : Expr} (hlo : lo ≤ e.startPos.byte) (hhi : e.endPos.byte ≤ hi) (hloc : Located text e)
    (hk : Exs text e.startPos.byte (kids e) e.endPos.byte) (ha : e.comments.after = []) (hs : isBlock e = false) : Ex text lo e hi :=
  ⟨hlo, hhi, .mk e hloc hk.order hk.nested, ha, hs⟩

/-! ### Tokens -/

/-- what is known of a token: its text is at its position -/
structure TokAt (text : Bytes) (t : Tok) : Prop where
  at_ : At text t.pos t.tok
  text : TokText t

/-- tokens one after the other -/
inductive Seg (text : Bytes) : Nat → List Tok → Nat → Prop
  | nil {lo hi} : lo ≤ hi → Seg text lo [] hi
  | cons {lo t ts hi} : lo ≤ t.pos.byte → TokAt text t → Seg text (t.pos.byte + t.tok.length) ts hi → Seg text lo (t :: ts) hi

theorem Seg.le {text lo ts hi} (h : Seg text lo ts hi) : lo ≤ hi := by
  induction h with
  | nil h => exact h
  | cons _ _ _ ih => omega

theorem Seg.split {text lo a b hi} (h : Seg text lo (a ++ b) hi) : ∃ m, Seg text lo a m ∧ Seg text m b hi := by
  induction a generalizing lo with
  | nil => exact ⟨lo, .nil (Nat.le_refl _), h⟩
  | cons t a ih =>
    cases h with
    | cons h1 h2 h3 =>
      obtain ⟨m, h4, h5⟩ := ih h3
      exact ⟨m, .cons h1 h2 h4, h5⟩

theorem Seg.one {text lo t hi} (h : Seg text lo [t] hi) : lo ≤ t.pos.byte ∧ TokAt text t ∧ t.pos.byte + t.tok.length ≤ hi := by
  cases h with
  | cons h1 h2 h3 => exact ⟨h1, h2, h3.le⟩

/-- the text of the tokens of a kind with a fixed text -/
theorem tok_fixed {t : Tok} {k : Kind} {s : Bytes} (h : TokText t) (hk : t.kind = k)
    (h0 : k ≠ K.ident ∧ k ≠ K.int ∧ k ≠ K.string ∧ k ≠ K.comment) (hf : ∀ q ∈ fixedTokens, q.1 = k → q.2 = s) : t.tok = s := by
  subst hk
  cases h with
  | fixed h => exact hf _ h rfl
  | ident c s h => exact absurd h h0.1
  | int c s h => exact absurd h h0.2.1
  | string _ _ _ h => exact absurd h h0.2.2.1
  | comment s h => exact absurd h h0.2.2.2

theorem tok_int {t : Tok} (h : TokText t) (hk : t.kind = K.int) : t.tok ≠ [] := by
  cases h with
  | fixed h =>
    have key : ∀ q ∈ fixedTokens, q.1 ≠ K.int := by decide
    exact absurd hk (key _ h)
  | ident c s h h' => rw [h']; simp
  | int c s h h' => rw [h']; simp
  | string _ _ _ h => exact absurd (hk.symm.trans h) (by decide)
  | comment s h h' => rw [h']; simp

theorem tok_comment {t : Tok} (h : TokText t) (hk : t.kind = K.comment) : ∃ s, t.tok = 35 :: s := by
  cases h with
  | fixed h =>
    have key : ∀ q ∈ fixedTokens, q.1 ≠ K.comment := by decide
    exact absurd hk (key _ h)
  | ident c s h => exact absurd (hk.symm.trans h) (by decide)
  | int c s h => exact absurd (hk.symm.trans h) (by decide)
  | string _ _ _ h => exact absurd (hk.symm.trans h) (by decide)
  | comment s h h' => exact ⟨s, h'⟩

theorem tiled_seg {text pre rest : Bytes} {ts : List Tok} {cs : List Comment} (h : Tiled pre rest ts cs) (ht : text = pre ++ rest) :
    Seg text pre.length ts text.length := by
  induction h with
  | eof pre t hk htok hpos =>
    subst ht
    refine .cons ?_ ⟨⟨pre, [], by rw [htok]; simp, hpos⟩, .fixed t (by rw [hk, htok]; decide)⟩ (.nil ?_)
    · rw [hpos]; exact Nat.le_refl _
    · rw [hpos, htok]; simp [posAt]
  | blank pre c s ts cs hc _ ih =>
    have := ih (by rw [ht]; simp)
    exact seg_lower this (by simp)
  | continued pre s ts cs _ ih =>
    have := ih (by rw [ht]; simp)
    exact seg_lower this (by simp)
  | comment pre tx s ts cs _ _ _ ih =>
    have := ih (by rw [ht]; simp)
    exact seg_lower this (by simp)
  | tok pre t s ts cs hk hpos htx _ ih =>
    have := ih (by rw [ht]; simp)
    refine .cons ?_ ⟨⟨pre, s, by rw [ht]; simp, hpos⟩, htx⟩ ?_
    · rw [hpos]; exact Nat.le_refl _
    · rw [hpos]; simpa [posAt] using this
where
  seg_lower {text lo ts hi lo'} (h : Seg text lo ts hi) (hl : lo' ≤ lo) : Seg text lo' ts hi := by
    cases h with
    | nil h => exact .nil (by omega)
    | cons h1 h2 h3 => exact .cons (by omega) h2 h3

end Verif.Props.Spans
