import Verif.Proofs.SpanBase
/-
C97: the spans of the nodes built by the actions for expressions and simple statements.
-/
namespace Verif.Props.Spans
open Verif Verif.Syntax Verif.Lexer Verif.Props.Lexer Verif.Parser Verif.Grammar Verif.Props.Grammar

/-- the text `s` is at `p`, between `lo` and `hi` -/
structure Tk (text : Bytes) (lo : Nat) (p : Pos) (s : Bytes) (hi : Nat) : Prop where
  lo : lo ≤ p.byte
  at_ : At text p s
  hi : p.byte + s.length ≤ hi

theorem Seg.tk {text lo t hi} (h : Seg text lo [t] hi) : Tk text lo t.pos t.tok hi := ⟨h.one.1, h.one.2.1.at_, h.one.2.2⟩

theorem Seg.fix {text lo t hi} {k : Kind} (s : Bytes) (h : Seg text lo [t] hi) (hk : t.kind = k)
    (h0 : k ≠ K.ident ∧ k ≠ K.int ∧ k ≠ K.string ∧ k ≠ K.comment) (hf : ∀ q ∈ fixedTokens, q.1 = k → q.2 = s) :
    Tk text lo t.pos s hi := tok_fixed h.one.2.1.text hk h0 hf ▸ h.tk

theorem Tk.le {text lo p s hi} (h : Tk text lo p s hi) : lo ≤ hi := by have := h.lo; have := h.hi; omega

theorem Ex.here {text lo e hi} (h : Ex text lo e hi) : Ex text e.startPos.byte e hi :=
  ⟨Nat.le_refl _, h.hi, h.nested, h.after, h.simple⟩

theorem Ex.endLe {text lo e hi} (h : Ex text lo e hi) : Ex text lo e e.endPos.byte :=
  ⟨h.lo, Nat.le_refl _, h.nested, h.after, h.simple⟩

variable {text : Bytes} {lo hi m m1 m2 m3 m4 m5 m6 m7 : Nat}

theorem ex_ident {p s} (h : Tk text lo p s hi) : Ex text lo (.ident { namePos := p, name := s }) hi :=
  .mk' h.lo (by show (p.add s).byte ≤ hi; rw [add_byte]; exact h.hi) h.at_
    (.nil (by show p.byte ≤ (p.add s).byte; rw [add_byte]; omega)) rfl rfl

theorem ex_string {p s str tr} (h : Tk text lo p s hi) :
    Ex text lo (.string { start := p, value := str, triple := tr, endPos := p.add s, token := s }) hi :=
  .mk' h.lo (by show (p.add s).byte ≤ hi; rw [add_byte]; exact h.hi) ⟨h.at_, rfl⟩
    (.nil (by show p.byte ≤ (p.add s).byte; rw [add_byte]; omega)) rfl rfl

theorem ex_literal {p t a b} (h : At text p a) (ht : t = a ++ b) (ha : a ≠ []) (hlo : lo ≤ p.byte) (hhi : p.byte + t.length ≤ hi) :
    Ex text lo (.literal {} p t) hi :=
  .mk' hlo (by show (p.add t).byte ≤ hi; rw [add_byte]; exact hhi) ⟨a, b, ht, ha, h⟩
    (.nil (by show p.byte ≤ (p.add t).byte; rw [add_byte]; omega)) rfl rfl

theorem ex_branch {p t} (h : Tk text lo p t hi) : Ex text lo (.branch {} t p) hi :=
  .mk' h.lo (by show (p.add t).byte ≤ hi; rw [add_byte]; exact h.hi) h.at_
    (.nil (by show p.byte ≤ (p.add t).byte; rw [add_byte]; omega)) rfl rfl

theorem ex_dot {x p q n} (h1 : Ex text lo x m1) (h2 : Tk text m1 p b!"." m2) (h3 : Tk text m2 q n hi) :
    Ex text lo (.dot {} x p q n) hi :=
  .mk' h1.lo (by show (q.add n).byte ≤ hi; rw [add_byte]; exact h3.hi) ⟨h2.at_, h3.at_⟩
    (by
      show Exs text x.startPos.byte [x] (q.add n).byte
      rw [add_byte]
      exact (Exs.one h1.here).mono (Nat.le_refl _) (by have := h2.le; have := h3.lo; omega)) rfl rfl

theorem ex_call {x p l q a b} (h1 : Ex text lo x m1) (h2 : Tk text m1 p b!"(" m2) (h3 : Exs text m2 l m3) (h4 : Tk text m3 q b!")" hi) :
    Ex text lo (.call {} x p l ⟨{}, q⟩ a b) hi :=
  .mk' h1.lo (by show (q.add _).byte ≤ hi; rw [add_byte]; exact h4.hi) ⟨h2.at_, h4.at_⟩
    (by
      show Exs text x.startPos.byte (x :: l) (q.add _).byte
      rw [add_byte]
      exact .cons h1.here (h3.mono h2.le (by have := h4.lo; omega))) rfl rfl

theorem ex_index {x p y q} (h1 : Ex text lo x m1) (h2 : Tk text m1 p b!"[" m2) (h3 : Ex text m2 y m3) (h4 : Tk text m3 q b!"]" hi) :
    Ex text lo (.index {} x p y q) hi :=
  .mk' h1.lo (by show (q.add _).byte ≤ hi; rw [add_byte]; exact h4.hi) ⟨h2.at_, h4.at_⟩
    (by
      show Exs text x.startPos.byte [x, y] (q.add _).byte
      rw [add_byte]
      exact .cons h1.here ((Exs.one h3).mono h2.le (by have := h4.lo; omega))) rfl rfl

theorem ex_slice {x p f c1 t c2 s q} (h1 : Ex text lo x m1) (h2 : Tk text m1 p b!"[" m2) (h3 : ExO text m2 f m3) (h4 : Tk text m3 c1 b!":" m4)
    (h5 : ExO text m4 t m5) (h6 : ExO text m5 s m6) (h7 : Tk text m6 q b!"]" hi) :
    Ex text lo (.slice {} x p f c1 t c2 s q) hi :=
  .mk' h1.lo (by show (q.add _).byte ≤ hi; rw [add_byte]; exact h7.hi) ⟨h2.at_, h4.at_, h7.at_⟩
    (by
      show Exs text x.startPos.byte (x :: (opt f ++ opt t ++ opt s)) (q.add _).byte
      rw [add_byte]
      refine .cons h1.here (Exs.append (Exs.append (h3.exs.mono h2.le (Nat.le_refl _)) (h5.exs.mono h4.le (Nat.le_refl _)))
        (h6.exs.mono (Nat.le_refl _) (by have := h7.lo; omega)))) rfl rfl

theorem ex_list {p l q f} (h1 : Tk text lo p b!"[" m1) (h2 : Exs text m1 l m2) (h3 : Tk text m2 q b!"]" hi) :
    Ex text lo (.list {} p l ⟨{}, q⟩ f) hi :=
  .mk' h1.lo (by show (q.add _).byte ≤ hi; rw [add_byte]; exact h3.hi) ⟨h1.at_, h3.at_⟩
    (by
      show Exs text p.byte l (q.add _).byte
      rw [add_byte]
      exact h2.mono (by have := h1.hi; omega) (by have := h3.lo; omega)) rfl rfl

theorem ex_dict {p l q f} (h1 : Tk text lo p b!"{" m1) (h2 : Exs text m1 l m2) (h3 : Tk text m2 q b!"}" hi) :
    Ex text lo (.dict {} p l ⟨{}, q⟩ f) hi :=
  .mk' h1.lo (by show (q.add _).byte ≤ hi; rw [add_byte]; exact h3.hi) ⟨h1.at_, h3.at_⟩
    (by
      show Exs text p.byte l (q.add _).byte
      rw [add_byte]
      exact h2.mono (by have := h1.hi; omega) (by have := h3.lo; omega)) rfl rfl

theorem ex_set {p l q f} (h1 : Tk text lo p b!"{" m1) (h2 : Exs text m1 l m2) (h3 : Tk text m2 q b!"}" hi) :
    Ex text lo (.set {} p l ⟨{}, q⟩ f) hi :=
  .mk' h1.lo (by show (q.add _).byte ≤ hi; rw [add_byte]; exact h3.hi) ⟨h1.at_, h3.at_⟩
    (by
      show Exs text p.byte l (q.add _).byte
      rw [add_byte]
      exact h2.mono (by have := h1.hi; omega) (by have := h3.lo; omega)) rfl rfl

theorem ex_compr0 {p x l q f} (h1 : Tk text lo p b!"[" m1) (h2 : Ex text m1 x m2) (h3 : Exs text m2 l m3) (h4 : Tk text m3 q b!"]" hi) :
    Ex text lo (.compr {} false p x l f ⟨{}, q⟩) hi :=
  .mk' h1.lo (by show (q.add _).byte ≤ hi; rw [add_byte]; exact h4.hi) ⟨h1.at_, h4.at_⟩
    (by
      show Exs text p.byte (x :: l) (q.add _).byte
      rw [add_byte]
      exact (Exs.cons h2 h3).mono (by have := h1.hi; omega) (by have := h4.lo; omega)) rfl rfl

theorem ex_compr1 {p x l q f} (h1 : Tk text lo p b!"{" m1) (h2 : Ex text m1 x m2) (h3 : Exs text m2 l m3) (h4 : Tk text m3 q b!"}" hi) :
    Ex text lo (.compr {} true p x l f ⟨{}, q⟩) hi :=
  .mk' h1.lo (by show (q.add _).byte ≤ hi; rw [add_byte]; exact h4.hi) ⟨h1.at_, h4.at_⟩
    (by
      show Exs text p.byte (x :: l) (q.add _).byte
      rw [add_byte]
      exact (Exs.cons h2 h3).mono (by have := h1.hi; omega) (by have := h4.lo; omega)) rfl rfl

theorem ex_parenOrTuple {p v q} (h1 : Tk text lo p b!"(" m1) (h2 : Exs text m1 v.exprs m2) (h3 : Tk text m2 q b!")" hi) :
    Ex text lo (parenOrTuple p v q) hi := by
  unfold parenOrTuple
  split
  · rename_i h
    refine .mk' h1.lo (by show (q.add _).byte ≤ hi; rw [add_byte]; exact h3.hi) ⟨h1.at_, h3.at_⟩ ?_ rfl rfl
    show Exs text p.byte [v.exprs.headD .nil] (q.add _).byte
    rw [add_byte]
    match hv : v.exprs, h.1 with
    | [x], _ =>
      rw [hv] at h2
      exact h2.mono (by have := h1.hi; omega) (by have := h3.lo; omega)
  · refine .mk' h1.lo (by simp only [Expr.endPos, EndN.endPos, Bool.false_eq_true, if_false]; rw [add_byte]; exact h3.hi) ⟨h1.at_, h3.at_⟩ ?_ rfl rfl
    simp only [Expr.startPos, Expr.endPos, EndN.endPos, kids, Bool.false_eq_true, if_false]
    rw [add_byte]
    exact h2.mono (by have := h1.hi; omega) (by have := h3.lo; omega)

theorem ex_unary {p o x} (h1 : Tk text lo p o m1) (h2 : Ex text m1 x hi) : Ex text lo (mkUnary p o x) hi := by
  have hn := h2.nested.notNil
  have he : (mkUnary p o x).endPos = x.endPos := by simp only [mkUnary, Expr.endPos, hn, Bool.false_eq_true, if_false]
  refine .mk' h1.lo (by rw [he]; exact h2.hi) ⟨h1.at_, fun h => absurd (hn.symm.trans h) (by decide)⟩ ?_ rfl rfl
  rw [he]
  show Exs text p.byte (opt x) _
  simp only [opt, hn, Bool.false_eq_true, if_false]
  exact (Exs.one h2.endLe).mono (by have := h1.hi; omega) (Nat.le_refl _)

theorem ex_star {p o} (h1 : Tk text lo p o hi) (ho : o = b!"*") : Ex text lo (mkUnary p o .nil) hi :=
  .mk' h1.lo (by show p.byte ≤ hi; have := h1.hi; omega) ⟨h1.at_, fun _ => ho⟩ (.nil (Nat.le_refl _)) rfl rfl

theorem ex_binary' {x p o y} (h1 : Ex text lo x m1) (hl : At text p o ∨ (o = b!"not in" ∧ At text p b!"not") ∨ (o = b!"is not" ∧ At text p b!"is"))
    (hm : m1 ≤ m2) (h3 : Ex text m2 y hi) (b : Bool) : Ex text lo (.binary {} x p o b y) hi :=
  .mk' h1.lo h3.hi hl (.cons h1.here ((Exs.one h3.endLe).mono hm (Nat.le_refl _))) rfl rfl

theorem ex_binary {x p o y} (h1 : Ex text lo x m1) (h2 : Tk text m1 p o m2) (h3 : Ex text m2 y hi) : Ex text lo (mkBinary x p o y) hi := by
  unfold mkBinary
  dsimp only
  split
  · exact .mk' h1.lo h3.hi h2.at_ (.cons h1.here ((Exs.one h3.endLe).mono h2.le (Nat.le_refl _))) rfl rfl
  · exact ex_binary' h1 (.inl h2.at_) h2.le h3 _

theorem ex_notIn {x p y} (h1 : Ex text lo x m1) (h2 : Tk text m1 p b!"not" m2) (hm : m2 ≤ m3) (h3 : Ex text m3 y hi) :
    Ex text lo (mkBinary x p b!"not in" y) hi :=
  ex_binary' h1 (.inr (.inl ⟨rfl, h2.at_⟩)) (Nat.le_trans h2.le hm) h3 _

theorem ex_is {x p o y} (h1 : Ex text lo x m1) (h2 : Tk text m1 p b!"is" m2) (ho : o = b!"is") (h3 : Ex text m2 y hi) :
    Ex text lo (mkIs x p o y) hi := by
  subst ho
  unfold mkIs
  split
  · rename_i c o uop z
    split
    · rename_i hop
      have hn := h3.nested
      have hk := hn.order
      have ho := h3.hi
      have hlo := h3.lo
      have hz' : z.isNil = false := by
        cases hz : z.isNil with
        | false => rfl
        | true => exact absurd (hop.symm.trans (hn.located.2 hz)) (by decide)
      simp only [kids, opt, hz', Bool.false_eq_true, if_false, InOrder, Expr.startPos] at hk
      simp only [Expr.endPos, hz', Bool.false_eq_true, if_false] at ho hk
      simp only [Expr.startPos] at hlo
      have hzn : Nested text z := hn.kid z (by simp [kids, opt, hz'])
      have := h2.le
      have := h1.hi
      refine ⟨h1.lo, ho, .mk _ (.inr (.inr ⟨rfl, h2.at_⟩)) ⟨Nat.le_refl _, h1.nested.span, ?_, hzn.span, Nat.le_refl _⟩ ?_, rfl, rfl⟩
      · omega
      · intro k hk
        rcases List.mem_cons.1 hk with rfl | hk
        · exact h1.nested
        · rw [List.mem_singleton.1 hk]; exact hzn
    · exact ex_binary h1 h2 h3
  · exact ex_binary h1 h2 h3

theorem ex_typed {e t} (h1 : ∃ n, e = .ident n ∧ Ex text lo (.ident n) m1) (hm : m1 ≤ m2) (h2 : Ex text m2 t hi) :
    Ex text lo (mkTyped e t) hi := by
  obtain ⟨n, rfl, h1⟩ := h1
  exact .mk' h1.lo h2.hi trivial (.cons h1.here ((Exs.one h2.endLe).mono hm (Nat.le_refl _))) rfl rfl

theorem endPosLast_snoc (l : List Expr) (x : Expr) : endPosLast (l ++ [x]) = x.endPos := by
  induction l with
  | nil => rfl
  | cons y l ih => cases l with
    | nil => rfl
    | cons z l => exact ih

theorem exs_of {lo hi : Nat} {l : List Expr} (h : InOrder lo l hi) (hn : ∀ x ∈ l, Nested text x) {e : Expr}
    (hk : kids e = l) (hs : e.startPos.byte = lo) (he : e.endPos.byte = hi) (hl : Located text e) : Nested text e :=
  .mk e hl (by rw [hs, hk, he]; exact h) (by rw [hk]; exact hn)

theorem ex_tupleAppend {x y} (h1 : Ex text lo x m1) (hm : m1 ≤ m2) (h2 : Ex text m2 y hi) : Ex text lo (tupleAppend x y) hi := by
  unfold tupleAppend
  split
  · rename_i c s l e fc fm
    have hn := h1.nested
    have hl : l ≠ [] := hn.located
    have ho := hn.order
    have hlo := h1.lo
    have hhi := h1.hi
    have hst : startPosHead (l ++ [y]) = startPosHead l := by cases l with
      | nil => exact absurd rfl hl
      | cons z l => rfl
    simp only [Expr.startPos, Expr.endPos, if_true, kids] at ho hlo hhi
    refine ⟨?_, ?_, exs_of (l := l ++ [y]) (lo := (startPosHead l).byte) (hi := y.endPos.byte) ?_ ?_ rfl ?_ ?_ ?_, h1.after, rfl⟩
    · simp only [Expr.startPos, if_true, hst]; exact hlo
    · simp only [Expr.endPos, if_true, endPosLast_snoc]; exact h2.hi
    · refine ho.append ⟨?_, h2.nested.span, Nat.le_refl _⟩
      have := h2.lo
      omega
    · intro z hz
      rcases List.mem_append.1 hz with hz | hz
      · exact hn.kid z hz
      · rw [List.mem_singleton.1 hz]; exact h2.nested
    · simp only [Expr.startPos, if_true, hst]
    · simp only [Expr.endPos, if_true, endPosLast_snoc]
    · show l ++ [y] ≠ []
      simp
  · exact .mk' h1.lo h2.hi (by show [x, y] ≠ []; simp) (.cons h1.here ((Exs.one h2.endLe).mono hm (Nat.le_refl _))) rfl rfl

theorem ex_lambda {p ps b} (h1 : Tk text lo p b!"lambda" m1) (h2 : Exs text m1 ps m2) (hm : m2 ≤ m3) (h3 : Ex text m3 b hi) :
    Ex text lo (.lambda {} p ps [b]) hi :=
  .mk' h1.lo h3.hi ⟨h1.at_, by simp⟩
    ((h2.mono (by show p.byte ≤ m1; have := h1.hi; omega) (Nat.le_refl _)).append ((Exs.one h3.endLe).mono hm (Nat.le_refl _))) rfl rfl

theorem ex_cond {t p te q e} (h1 : Ex text lo t m1) (h2 : Tk text m1 p b!"if" m2) (h3 : Ex text m2 te m3) (h4 : Tk text m3 q b!"else" m4)
    (h5 : Ex text m4 e hi) : Ex text lo (.cond {} t p te q e) hi :=
  .mk' h1.lo h5.hi ⟨h2.at_, h4.at_⟩
    (.cons h1.here (.cons (h3.mono h2.le (Nat.le_refl _)) ((Exs.one h5.endLe).mono h4.le (Nat.le_refl _)))) rfl rfl

theorem ex_keyValue {k p v} (h1 : Ex text lo k m1) (h2 : Tk text m1 p b!":" m2) (h3 : Ex text m2 v hi) :
    Ex text lo (.keyValue {} k p v) hi :=
  .mk' h1.lo h3.hi h2.at_ (.cons h1.here ((Exs.one h3.endLe).mono h2.le (Nat.le_refl _))) rfl rfl

theorem ex_forClause {p v q x} (h1 : Tk text lo p b!"for" m1) (h2 : Ex text m1 v m2) (h3 : Tk text m2 q b!"in" m3) (h4 : Ex text m3 x hi) :
    Ex text lo (.forClause {} p v q x) hi :=
  .mk' h1.lo h4.hi ⟨h1.at_, h3.at_⟩
    (.cons (h2.mono (by show p.byte ≤ m1; have := h1.hi; omega) (Nat.le_refl _)) ((Exs.one h4.endLe).mono h3.le (Nat.le_refl _))) rfl rfl

theorem ex_ifClause {p x} (h1 : Tk text lo p b!"if" m1) (h2 : Ex text m1 x hi) : Ex text lo (.ifClause {} p x) hi :=
  .mk' h1.lo h2.hi h1.at_ ((Exs.one h2.endLe).mono (by show p.byte ≤ m1; have := h1.hi; omega) (Nat.le_refl _)) rfl rfl

theorem ex_load {p e q f t b} (h1 : Tk text lo p b!"load" m1) (hm : m1 ≤ m2) (h2 : ∃ n, e = .string n ∧ Ex text m2 (.string n) m3)
    (hm' : m3 ≤ m4) (h3 : Tk text m4 q b!")" hi) : Ex text lo (.load {} p (asString e) f t ⟨{}, q⟩ b) hi := by
  obtain ⟨n, rfl, h2⟩ := h2
  refine .mk' h1.lo (by show (q.add _).byte ≤ hi; rw [add_byte]; exact h3.hi) ⟨h1.at_, h3.at_⟩ ?_ rfl rfl
  show Exs text p.byte [.string n] (q.add _).byte
  rw [add_byte]
  exact (Exs.one h2).mono (by have := h1.hi; omega) (by have := h3.lo; omega)

theorem ex_return {p x} (h1 : Tk text lo p b!"return" m1) (h2 : Ex text m1 x hi) : Ex text lo (.returnS {} p x) hi := by
  have hn := h2.nested.notNil
  have he : (Expr.returnS {} p x).endPos = x.endPos := by simp only [Expr.endPos, hn, Bool.false_eq_true, if_false]
  refine .mk' h1.lo (by rw [he]; exact h2.hi) h1.at_ ?_ rfl rfl
  rw [he]
  show Exs text p.byte (opt x) _
  simp only [opt, hn, Bool.false_eq_true, if_false]
  exact (Exs.one h2.endLe).mono (by have := h1.hi; omega) (Nat.le_refl _)

theorem ex_return0 {p} (h1 : Tk text lo p b!"return" hi) : Ex text lo (.returnS {} p .nil) hi :=
  .mk' h1.lo (by simp only [Expr.endPos, Expr.isNil, if_true]; rw [add_byte]; exact h1.hi) h1.at_
    (.nil (by simp only [Expr.startPos, Expr.endPos, Expr.isNil, if_true]; rw [add_byte]; omega)) rfl rfl

end Verif.Props.Spans
