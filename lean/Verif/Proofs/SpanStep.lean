import Verif.Proofs.SpanBody
/-
C97: what is known of the spans in the value of each nonterminal, and the proof for each production.
-/
namespace Verif.Props.Spans
open Verif Verif.Syntax Verif.Lexer Verif.Props.Lexer Verif.Parser Verif.Grammar Verif.Props.Grammar

/-- a statement with a body -/
structure Blk (text : Bytes) (l : Nat) (e : Expr) (k : Nat) : Prop where
  lo : l ≤ e.startPos.byte
  nested : Nested text e
  after : e.comments.after = []
  hi : e.endPos.byte ≤ k
  stm : Stm text e k

/-- an `if` with `elif` branches and without an `else` branch -/
inductive Chain (text : Bytes) : Expr → Nat → Prop
  | last {c p x t e lo k} : Body text lo t k → Chain text (.ifS c p x t e []) k
  | more {c p y t e x k} : Chain text x k → isIf x = true → Chain text (.ifS c p y t e [x]) k

/-- a definition without its body -/
def Hdr (text : Bytes) (lo : Nat) (e : Expr) (hi : Nat) : Prop :=
  ∃ p n ps q fc fm ty, e = .defS {} p n ps [] q fc fm ty ∧ lo ≤ p.byte ∧ At text p b!"def" ∧ Exs text p.byte (ps ++ opt ty) hi

/-- What is known of the spans in the value of each nonterminal. -/
def Sp (text : Bytes) (a : NT) (lo hi : Nat) (ts : List Tok) (v : Val) : Prop := match a with
  | .file => Body text lo v.exprs hi
  | .stmts => Body text lo v.exprs hi ∧ (v.last = true → v.exprs ≠ []) ∧ (v.exprs = [] → ∀ t ∈ ts, t.kind = K.newline)
  | .comments => Body text lo v.exprs hi
  | .suite => Body text lo v.exprs hi ∧ v.exprs ≠ []
  | .stmt => Body text lo v.exprs hi ∧ v.exprs ≠ []
  | .simpleStmt => Exs text lo v.exprs hi ∧ v.exprs ≠ []
  | .blockStmt => Blk text lo v.expr hi
  | .ifElseBlock => Blk text lo v.expr hi
  | .ifChain => Blk text lo v.expr hi ∧ Chain text v.expr hi
  | .elif_ => lo ≤ v.pos.byte ∧ v.pos.byte ≤ hi ∧ (At text v.pos b!"else" ∨ At text v.pos b!"elif")
  | .commaOpt => True | .commas => True | .commasOpt => True | .linebreaksOpt => True | .semiOpt => True
  | .loadArguments => True | .loadArgument => True
  | .ident => ∃ n, v.expr = .ident n ∧ Ex text lo (.ident n) hi
  | .string => ∃ n, v.expr = .string n ∧ Ex text lo (.string n) hi
  | .exprOpt => ExO text lo v.expr hi
  | .testOpt => ExO text lo v.expr hi
  | .arguments => Exs text lo v.exprs hi
  | .argumentsOpt => Exs text lo v.exprs hi
  | .parameters => Exs text lo v.exprs hi
  | .parametersOpt => Exs text lo v.exprs hi
  | .parametersType => Exs text lo v.exprs hi
  | .parametersTypeOpt => Exs text lo v.exprs hi
  | .tests => Exs text lo v.exprs hi
  | .testsOpt => Exs text lo v.exprs hi
  | .keyvalues => Exs text lo v.exprs hi
  | .keyvaluesNoComma => Exs text lo v.exprs hi
  | .forClauseWithIfClausesOpt => Exs text lo v.exprs hi
  | .forClausesWithIfClausesOpt => Exs text lo v.exprs hi
  | .smallStmtsContinuation => Exs text lo v.exprs hi
  | .defHeader => Hdr text lo v.expr hi
  | .defHeaderTypeOpt => Hdr text lo v.expr hi
  | _ => Ex text lo v.expr hi

/-- a block start is followed by a statement -/
def IndB (ts : List Tok) : Prop := ∀ a t u b, ts = a ++ t :: u :: b → t.kind = K.indent →
  u.kind ≠ K.newline ∧ u.kind ≠ K.comment ∧ u.kind ≠ K.unindent

/-- the property for `deriv_induct` -/
def SpG (text : Bytes) : VP := fun a ts v => ∀ lo hi, Seg text lo ts hi → IndB ts → Sp text a lo hi ts v

theorem ind_left {a b : List Tok} (h : IndB (a ++ b)) : IndB a :=
  fun x t u y e k => h x t u (y ++ b) (by rw [e]; simp) k

theorem ind_right {a b : List Tok} (h : IndB (a ++ b)) : IndB b :=
  fun x t u y e k => h (a ++ x) t u y (by rw [e]; simp) k

variable {text : Bytes} {lo hi m m1 m2 m3 m4 m5 m6 m7 : Nat}

theorem ind_stmts {u1 u3 u5 : Tok} {t2 t4 : List Tok} (h : IndB ([u1] ++ t2 ++ [u3] ++ t4 ++ [u5])) (k3 : u3.kind = K.indent)
    (k5 : u5.kind = K.unindent) (hn : ∀ t ∈ t4, t.kind = K.newline) : False := by
  cases t4 with
  | nil => exact (h ([u1] ++ t2) u3 u5 [] (by simp) k3).2.2 k5
  | cons t t4 => exact (h ([u1] ++ t2) u3 t (t4 ++ [u5]) (by simp) k3).1 (hn t (by simp))

theorem newline_all {u : Tok} {ts : List Tok} {l : List Expr} (k : u.kind = K.newline) (h : l = [] → ∀ t ∈ ts, t.kind = K.newline) :
    l = [] → ∀ t ∈ ts ++ [u], t.kind = K.newline := by
  intro hl t ht
  rcases List.mem_append.1 ht with ht | ht
  · exact h hl t ht
  · rw [List.mem_singleton.1 ht]; exact k

theorem comment_at {u : Tok} (h : Seg text lo [u] hi) (k : u.kind = K.comment) : At text u.pos b!"#" := by
  obtain ⟨s, hs⟩ := tok_comment h.one.2.1.text k
  have := h.one.2.1.at_
  rw [hs] at this
  exact at_prefix (b := s) this

theorem ident_ex {e : Expr} {f : α → Expr} (h : ∃ n, e = f n ∧ Ex text lo (f n) hi) : Ex text lo e hi := by
  obtain ⟨n, rfl, h⟩ := h
  exact h

theorem ExO.mono {e lo' hi'} (h : ExO text lo e hi) (h1 : lo' ≤ lo) (h2 : hi ≤ hi') : ExO text lo' e hi' := by
  obtain ⟨h, rfl | h'⟩ := h
  · exact .none (by omega)
  · exact .some (h'.mono h1 h2)

theorem Tk.byteLe {p s} (h : Tk text lo p s hi) : p.byte ≤ hi := by have := h.hi; omega

theorem map_some {α β : Type} {o : Option α} {f : α → β} {v : β} (h : o.map f = some v) : ∃ e, o = some e ∧ v = f e := by
  cases o with
  | none => cases h
  | some e => cases h; exact ⟨e, rfl, rfl⟩

theorem blk_extract {e : Expr} (h : Blk text lo e hi) :
    Body text lo ((extractTrailing (chainLength e) e).1 :: (extractTrailing (chainLength e) e).2) hi := by
  obtain ⟨m, cut⟩ := cut_extract (chainLength e) h.nested h.hi h.stm
  exact .cons (by rw [cut.start]; exact h.lo) cut.nested cut.end_ cut.stm
    (by rw [cut.comments, h.after]; exact .nil (Nat.le_refl _)) cut.rest

theorem blk_for {p v x b} (h1 : Tk text lo p b!"for" m1) (h2 : Ex text m1 v m2) (hm : m2 ≤ m3) (h3 : Ex text m3 x m4) (hm' : m4 ≤ m5)
    (h4 : Body text m5 b hi) (hb : b ≠ []) : Blk text lo (.forS {} p v x b) hi := by
  have he : Exs text p.byte [v, x] m5 := .cons (h2.mono h1.byteLe hm) ((Exs.one h3).mono (Nat.le_refl _) hm')
  have ho := order_body he.order h4 hb
  have hend : (Expr.forS {} p v x b).endPos = endPosLast b := stmtsEnd_eq h4.nested
  refine ⟨h1.lo, nested_for ⟨h1.at_, hb⟩ ho.1 ?_, rfl, by rw [hend]; exact ho.2, .forS h4⟩
  intro z hz
  rcases List.mem_append.1 hz with hz | hz
  · exact he.nested z hz
  · exact h4.nested z hz

theorem blk_if {p x b} (hlo : lo ≤ p.byte) (ha : At text p b!"if" ∨ At text p b!"elif" ∨ At text p b!"else") (h1 : p.byte ≤ m1)
    (h2 : Ex text m1 x m2) (hm : m2 ≤ m3) (h4 : Body text m3 b hi) (hb : b ≠ []) : Blk text lo (.ifS {} p x b {} []) hi := by
  have he : Exs text p.byte [x] m3 := (Exs.one h2).mono h1 hm
  have ho := order_body he.order h4 hb
  have hend := if_end0 (c := {}) (p := p) (x := x) (t := b) (e := {}) h4.nested
  refine ⟨hlo, .mk _ ⟨ha, hb, fun h => absurd rfl h⟩ (by rw [hend]; simpa [kids, Expr.startPos] using ho.1) ?_, rfl, by rw [hend]; exact ho.2, .ifS h4⟩
  intro z hz
  have hz : z ∈ x :: (b ++ []) := hz
  rw [List.append_nil] at hz
  rcases List.mem_cons.1 hz with rfl | hz
  · exact h2.nested
  · exact h4.nested z hz

theorem defHeader_type {e : Expr} {c sp n ps b cp fc fm t t'} (h : Hdr text lo e m1) (he : e = .defS c sp n ps b cp fc fm t) (hm : m1 ≤ m2)
    (h2 : Ex text m2 t' hi) : Hdr text lo (.defS c sp n ps b cp fc fm t') hi := by
  obtain ⟨p, n', ps', q, fc', fm', ty, h0, h1, h3, h4⟩ := h
  cases he.symm.trans h0
  have hle := h2.le
  refine ⟨_, _, _, _, _, _, _, rfl, h1, h3, ?_⟩
  have h5 : ∀ {a b : List Expr} {k}, Exs text k (a ++ b) m1 → Exs text k a m1 := by
    intro a b
    induction a with
    | nil => exact fun h => .nil h.le
    | cons x a ih =>
      intro k h
      cases h with
      | cons p q => exact .cons p (ih q)
  exact (h5 h4).append ((ExO.some h2).exs.mono hm (Nat.le_refl _))

theorem blk_def {e : Expr} {c sp n ps b cp fc fm t b' q} (h : Hdr text lo e m1) (he : e = .defS c sp n ps b cp fc fm t)
    (hc : Tk text m1 q b!":" m2) (h2 : Body text m2 b' hi) (hb : b' ≠ []) : Blk text lo (.defS c sp n ps b' q fc fm t) hi := by
  obtain ⟨p, n', ps', q', fc', fm', ty, h0, h1, h3, h4⟩ := h
  cases he.symm.trans h0
  have h5 := h4.mono (Nat.le_refl _) hc.le
  have ho := order_body h5.order h2 hb
  refine ⟨h1, nested_def ⟨h3, hc.at_, hb⟩ ho.1 ?_, rfl, ho.2, .defS h2⟩
  intro z hz
  rcases List.mem_append.1 hz with hz | hz
  · exact h5.nested z hz
  · exact h2.nested z hz

theorem chain_setElse (n : Nat) {e k p new lo e'} (hc : Chain text e k) (hn : Nested text e) (he : e.endPos.byte ≤ k)
    (hp : At text p b!"else" ∨ At text p b!"elif") (hb : Body text lo new hi) (hne : new ≠ []) (hk : k ≤ lo)
    (h : setElse n p new e = some e') : e'.startPos = e.startPos ∧ e'.comments = e.comments ∧ Nested text e' ∧ e'.endPos.byte ≤ hi ∧
      Stm text e' hi ∧ isIf e' = true ∧ (∀ x, new = [x] → isIf x = true → Chain text x hi → Chain text e' hi) := by
  induction hc generalizing n e' with
  | @last c ip x t ep q k' hbt =>
    cases n with
    | zero => cases h
    | succ n =>
      rw [setElse] at h
      case x_5 => simp
      cases h
      have ho := hn.order
      rw [if_end0 (fun y hy => hn.kid y (List.mem_cons_of_mem _ (List.mem_append_left _ hy)))] at ho he
      have ho' : InOrder ip.byte (x :: t) (endPosLast t).byte := by simpa [kids, Expr.startPos] using ho
      have ho'' := order_body (ho'.mono (Nat.le_refl _) (Nat.le_trans he hk)) hb hne
      have hend := if_end (c := c) (p := ip) (x := x) (t := t) (e := ⟨{}, p⟩) hne hb.nested
      refine ⟨rfl, rfl, .mk _ ⟨hn.located.1, hn.located.2.1, fun _ => hp⟩ (by rw [hend]; exact ho''.1) ?_, by rw [hend]; exact ho''.2,
        .else_ hb hne, rfl, ?_⟩
      · intro z hz
        rcases List.mem_append.1 (show z ∈ (x :: t) ++ new from hz) with hz | hz
        · exact hn.kid z (by show z ∈ x :: (t ++ []); rw [List.append_nil]; exact hz)
        · exact hb.nested z hz
      · rintro y rfl hi hy
        exact .more hy hi
  | @more c ip y t ep x k' hx hxi ih =>
    cases n with
    | zero => cases h
    | succ n =>
      rw [setElse] at h
      obtain ⟨x', hx', rfl⟩ := map_some h
      have hnx : Nested text x := hn.kid x (List.mem_cons_of_mem _ (List.mem_append_right _ (List.mem_singleton.2 rfl)))
      have hx1 : ∀ z ∈ [x], Nested text z := fun z hz => by rw [List.mem_singleton.1 hz]; exact hnx
      rw [if_end (by simp) hx1] at he
      obtain ⟨g1, g2, g3, g4, g5, g6, g7⟩ := ih n hnx he hk hx'
      have hx2 : ∀ z ∈ [x'], Nested text z := fun z hz => by rw [List.mem_singleton.1 hz]; exact g3
      have he' := if_end (c := c) (p := ip) (x := y) (t := t) (e := ep) (f := [x']) (by simp) hx2
      obtain ⟨q, h1, h2⟩ := InOrder.split (a := y :: t) (b := [x]) hn.order
      have h3 : InOrder q [x'] x'.endPos.byte := ⟨by rw [g1]; exact h2.1, g3.span, Nat.le_refl _⟩
      refine ⟨rfl, rfl, .mk _ ⟨hn.located.1, hn.located.2.1, fun _ => hn.located.2.2 (by simp)⟩ (by rw [he']; exact h1.append h3) ?_,
        by rw [he']; exact g4, ?_, rfl, ?_⟩
      · intro z hz
        rcases List.mem_append.1 (show z ∈ (y :: t) ++ [x'] from hz) with hz | hz
        · exact hn.kid z (List.mem_append_left (as := y :: t) (bs := [x]) hz)
        · exact hx2 z hz
      · cases x' <;> first | exact .elif g5 | cases g6
      · exact fun z h1 h2 h3 => .more (g7 z h1 h2 h3) g6

theorem blk_elif {v1 : Val} {p x b e'} (h1 : Blk text lo v1.expr m1 ∧ Chain text v1.expr m1)
    (h2 : m1 ≤ p.byte ∧ p.byte ≤ m2 ∧ (At text p b!"else" ∨ At text p b!"elif")) (h3 : Ex text m2 x m3) (hm : m3 ≤ m4)
    (h4 : Body text m4 b hi) (hb : b ≠ []) (h : setElse (chainLength v1.expr) p [.ifS {} p x b {} []] v1.expr = some e') :
    Blk text lo e' hi ∧ Chain text e' hi := by
  have hif : Blk text m1 (.ifS {} p x b {} []) hi := blk_if h2.1 (h2.2.2.elim (fun h => .inr (.inr h)) (fun h => .inr (.inl h))) h2.2.1 h3 hm h4 hb
  obtain ⟨g1, g2, g3, g4, g5, g6, g7⟩ := chain_setElse _ h1.2 h1.1.nested h1.1.hi h2.2.2
    (.cons hif.lo hif.nested hif.hi hif.stm (.nil (Nat.le_refl _)) (.nil (Nat.le_refl _))) (by simp) (Nat.le_refl _) h
  exact ⟨⟨by rw [g1]; exact h1.1.lo, g3, by rw [g2]; exact h1.1.after, g4, g5⟩, g7 _ rfl rfl (.last h4)⟩

theorem blk_else {v1 : Val} {p b e'} (h1 : Blk text lo v1.expr m1 ∧ Chain text v1.expr m1) (h2 : Tk text m1 p b!"else" m2) (hm : m2 ≤ m3)
    (h4 : Body text m3 b hi) (hb : b ≠ []) (h : setElse (chainLength v1.expr) p b v1.expr = some e') : Blk text lo e' hi := by
  obtain ⟨g1, g2, g3, g4, g5, g6, g7⟩ := chain_setElse _ h1.2 h1.1.nested h1.1.hi (.inl h2.at_) h4 hb (Nat.le_trans h2.le hm) h
  exact ⟨by rw [g1]; exact h1.1.lo, g3, by rw [g2]; exact h1.1.after, g4, g5⟩

/-! ### The productions -/

theorem spn0 : StepOK (SpG text) 0 := prod2 rfl (fun t1 t2 v1 v2 v h1 h2 h lo hi hs ib => by
  obtain ⟨u2, rfl, k2, rfl⟩ := h2
  obtain ⟨m1, s1, s2⟩ := hs.split
  have q1 : Sp text .stmts _ _ _ v1 := h1 _ _ s1 (ind_left ib)
  cases h
  exact q1.1.mono (Nat.le_refl _) s2.le)

theorem spn1 : StepOK (SpG text) 1 := prod5 rfl (fun t1 t2 t3 t4 t5 v1 v2 v3 v4 v5 v h1 h2 h3 h4 h5 h lo hi hs ib => by
  obtain ⟨u1, rfl, k1, rfl⟩ := h1
  obtain ⟨u3, rfl, k3, rfl⟩ := h3
  obtain ⟨u5, rfl, k5, rfl⟩ := h5
  obtain ⟨m4, hs, s5⟩ := hs.split
  obtain ⟨m3, hs, s4⟩ := hs.split
  obtain ⟨m2, hs, s3⟩ := hs.split
  obtain ⟨m1, s1, s2⟩ := hs.split
  have q2 : Sp text .comments _ _ _ v2 := h2 _ _ s2 (ind_right (ind_left (ind_left (ind_left ib))))
  have q4 : Sp text .stmts _ _ _ v4 := h4 _ _ s4 (ind_right (ind_left ib))
  have hne : v4.exprs ≠ [] := by
    intro he
    exact ind_stmts ib k3 k5 (q4.2.2 he)
  exact body_mkSuite (q2.mono s1.le (Nat.le_refl _)) s3.le (q4.1.mono (Nat.le_refl _) s5.le) hne h)

theorem spn2 : StepOK (SpG text) 2 := prod2 rfl (fun t1 t2 v1 v2 v h1 h2 h lo hi hs ib => by
  obtain ⟨m1, s1, s2⟩ := hs.split
  have q1 : Sp text .simpleStmt _ _ _ v1 := h1 _ _ s1 (ind_left ib)
  cases h
  exact ⟨(q1.1.mono (Nat.le_refl _) s2.le).body, q1.2⟩)

theorem spn3 : StepOK (SpG text) 3 := prod0 rfl (fun v h lo hi hs ib => by
  cases h
  exact trivial)

theorem spn4 : StepOK (SpG text) 4 := prod2 rfl (fun t1 t2 v1 v2 v h1 h2 h lo hi hs ib => by
  obtain ⟨u2, rfl, k2, rfl⟩ := h2
  obtain ⟨m1, s1, s2⟩ := hs.split
  cases h
  exact trivial)

theorem spn5 : StepOK (SpG text) 5 := prod0 rfl (fun v h lo hi hs ib => by
  cases h
  exact (Body.nil hs.le : Body text lo [] hi))

theorem spn6 : StepOK (SpG text) 6 := prod3 rfl (fun t1 t2 t3 v1 v2 v3 v h1 h2 h3 h lo hi hs ib => by
  obtain ⟨u2, rfl, k2, rfl⟩ := h2
  obtain ⟨u3, rfl, k3, rfl⟩ := h3
  obtain ⟨m2, hs, s3⟩ := hs.split
  obtain ⟨m1, s1, s2⟩ := hs.split
  have q1 : Sp text .comments _ _ _ v1 := h1 _ _ s1 (ind_left (ind_left ib))
  cases h
  exact body_addComment _ _ q1 s2.tk.lo (comment_at s2 k2) (Nat.le_trans (Nat.le_trans (Nat.le_add_right _ _) s2.tk.hi) s3.le))

theorem spn7 : StepOK (SpG text) 7 := prod2 rfl (fun t1 t2 v1 v2 v h1 h2 h lo hi hs ib => by
  obtain ⟨u2, rfl, k2, rfl⟩ := h2
  obtain ⟨m1, s1, s2⟩ := hs.split
  have q1 : Sp text .comments _ _ _ v1 := h1 _ _ s1 (ind_left ib)
  cases h
  exact q1.mono (Nat.le_refl _) s2.le)

theorem spn8 : StepOK (SpG text) 8 := prod0 rfl (fun v h lo hi hs ib => by
  cases h
  exact ⟨Body.nil hs.le, nofun, fun _ => nofun⟩)

theorem spn9 : StepOK (SpG text) 9 := prod2 rfl (fun t1 t2 v1 v2 v h1 h2 h lo hi hs ib => by
  obtain ⟨m1, s1, s2⟩ := hs.split
  have q1 : Sp text .stmts _ _ _ v1 := h1 _ _ s1 (ind_left ib)
  have q2 : Sp text .stmt _ _ _ v2 := h2 _ _ s2 (ind_right ib)
  cases h
  exact ⟨body_addStmt q1.1 q2.1, fun _ => addStmt_ne q2.2, fun h => absurd h (addStmt_ne q2.2)⟩)

theorem spn10 : StepOK (SpG text) 10 := prod2 rfl (fun t1 t2 v1 v2 v h1 h2 h lo hi hs ib => by
  obtain ⟨u2, rfl, k2, rfl⟩ := h2
  obtain ⟨m1, s1, s2⟩ := hs.split
  have q1 : Sp text .stmts _ _ _ v1 := h1 _ _ s1 (ind_left ib)
  cases h
  exact ⟨q1.1.mono (Nat.le_refl _) s2.le, nofun, newline_all k2 q1.2.2⟩)

theorem spn11 : StepOK (SpG text) 11 := prod3 rfl (fun t1 t2 t3 v1 v2 v3 v h1 h2 h3 h lo hi hs ib => by
  obtain ⟨u2, rfl, k2, rfl⟩ := h2
  obtain ⟨u3, rfl, k3, rfl⟩ := h3
  obtain ⟨m2, hs, s3⟩ := hs.split
  obtain ⟨m1, s1, s2⟩ := hs.split
  have q1 : Sp text .stmts _ _ _ v1 := h1 _ _ s1 (ind_left (ind_left ib))
  cases h
  exact ⟨body_addComment _ _ q1.1 s2.tk.lo (comment_at s2 k2) (Nat.le_trans (Nat.le_trans (Nat.le_add_right _ _) s2.tk.hi) s3.le), fun _ => addComment_ne _ _ q1.2.1, fun h => absurd h (addComment_ne _ _ q1.2.1)⟩)

theorem spn12 : StepOK (SpG text) 12 := prod1 rfl (fun t1 v1 v h1 h lo hi hs ib => by
  have s1 := hs
  have q1 : Sp text .simpleStmt _ _ _ v1 := h1 _ _ s1 ib
  cases h
  exact ⟨q1.1.body, q1.2⟩)

theorem spn13 : StepOK (SpG text) 13 := prod1 rfl (fun t1 v1 v h1 h lo hi hs ib => by
  have s1 := hs
  have q1 : Sp text .blockStmt _ _ _ v1 := h1 _ _ s1 ib
  cases h
  exact ⟨blk_extract q1, by simp⟩)

theorem spn14 : StepOK (SpG text) 14 := prod5 rfl (fun t1 t2 t3 t4 t5 v1 v2 v3 v4 v5 v h1 h2 h3 h4 h5 h lo hi hs ib => by
  obtain ⟨u1, rfl, k1, rfl⟩ := h1
  obtain ⟨u2, rfl, k2, rfl⟩ := h2
  obtain ⟨u3, rfl, k3, rfl⟩ := h3
  obtain ⟨u5, rfl, k5, rfl⟩ := h5
  obtain ⟨m4, hs, s5⟩ := hs.split
  obtain ⟨m3, hs, s4⟩ := hs.split
  obtain ⟨m2, hs, s3⟩ := hs.split
  obtain ⟨m1, s1, s2⟩ := hs.split
  have q4 : Sp text .parametersTypeOpt _ _ _ v4 := h4 _ _ s4 (ind_right (ind_left ib))
  have f1 := s1.fix b!"def" k1 (by decide) (by decide)
  cases h
  exact ⟨_, _, _, _, _, _, _, rfl, f1.lo, f1.at_, by have := f1.hi; have := s2.le; have := s3.le; have := s5.le; rw [show opt Expr.nil = [] from rfl, List.append_nil]; exact q4.mono (by show u1.pos.byte ≤ _; omega) s5.le⟩)

theorem spn15 : StepOK (SpG text) 15 := prod1 rfl (fun t1 v1 v h1 h lo hi hs ib => by
  have s1 := hs
  have q1 : Sp text .defHeader _ _ _ v1 := h1 _ _ s1 ib
  cases h
  exact q1)

theorem spn16 : StepOK (SpG text) 16 := prod3 rfl (fun t1 t2 t3 v1 v2 v3 v h1 h2 h3 h lo hi hs ib => by
  obtain ⟨u2, rfl, k2, rfl⟩ := h2
  obtain ⟨m2, hs, s3⟩ := hs.split
  obtain ⟨m1, s1, s2⟩ := hs.split
  have q1 : Sp text .defHeader _ _ _ v1 := h1 _ _ s1 (ind_left (ind_left ib))
  have q3 : Sp text .test _ _ _ v3 := h3 _ _ s3 (ind_right ib)
  obtain ⟨c, sp, n, ps, b, cp, fc, fm, t, he, rfl⟩ := sem17 h
  exact defHeader_type q1 he s2.le q3)

theorem spn17 : StepOK (SpG text) 17 := prod3 rfl (fun t1 t2 t3 v1 v2 v3 v h1 h2 h3 h lo hi hs ib => by
  obtain ⟨u2, rfl, k2, rfl⟩ := h2
  obtain ⟨m2, hs, s3⟩ := hs.split
  obtain ⟨m1, s1, s2⟩ := hs.split
  have q1 : Sp text .defHeaderTypeOpt _ _ _ v1 := h1 _ _ s1 (ind_left (ind_left ib))
  have q3 : Sp text .suite _ _ _ v3 := h3 _ _ s3 (ind_right ib)
  have f2 := s2.fix b!":" k2 (by decide) (by decide)
  obtain ⟨c, sp, n, ps, b, cp, fc, fm, t, he, rfl⟩ := sem18 h
  exact blk_def q1 he f2 q3.1 q3.2)

theorem spn18 : StepOK (SpG text) 18 := prod6 rfl (fun t1 t2 t3 t4 t5 t6 v1 v2 v3 v4 v5 v6 v h1 h2 h3 h4 h5 h6 h lo hi hs ib => by
  obtain ⟨u1, rfl, k1, rfl⟩ := h1
  obtain ⟨u3, rfl, k3, rfl⟩ := h3
  obtain ⟨u5, rfl, k5, rfl⟩ := h5
  obtain ⟨m5, hs, s6⟩ := hs.split
  obtain ⟨m4, hs, s5⟩ := hs.split
  obtain ⟨m3, hs, s4⟩ := hs.split
  obtain ⟨m2, hs, s3⟩ := hs.split
  obtain ⟨m1, s1, s2⟩ := hs.split
  have q2 : Sp text .loopVars _ _ _ v2 := h2 _ _ s2 (ind_right (ind_left (ind_left (ind_left (ind_left ib)))))
  have q4 : Sp text .expr _ _ _ v4 := h4 _ _ s4 (ind_right (ind_left (ind_left ib)))
  have q6 : Sp text .suite _ _ _ v6 := h6 _ _ s6 (ind_right ib)
  have f1 := s1.fix b!"for" k1 (by decide) (by decide)
  cases h
  exact blk_for f1 q2 s3.le q4 s5.le q6.1 q6.2)

theorem spn19 : StepOK (SpG text) 19 := prod1 rfl (fun t1 v1 v h1 h lo hi hs ib => by
  have s1 := hs
  have q1 : Sp text .ifElseBlock _ _ _ v1 := h1 _ _ s1 ib
  cases h
  exact q1)

theorem spn20 : StepOK (SpG text) 20 := prod4 rfl (fun t1 t2 t3 t4 v1 v2 v3 v4 v h1 h2 h3 h4 h lo hi hs ib => by
  obtain ⟨u1, rfl, k1, rfl⟩ := h1
  obtain ⟨u3, rfl, k3, rfl⟩ := h3
  obtain ⟨m3, hs, s4⟩ := hs.split
  obtain ⟨m2, hs, s3⟩ := hs.split
  obtain ⟨m1, s1, s2⟩ := hs.split
  have q2 : Sp text .expr _ _ _ v2 := h2 _ _ s2 (ind_right (ind_left (ind_left ib)))
  have q4 : Sp text .suite _ _ _ v4 := h4 _ _ s4 (ind_right ib)
  have f1 := s1.fix b!"if" k1 (by decide) (by decide)
  cases h
  exact ⟨blk_if f1.lo (.inl f1.at_) f1.byteLe q2 s3.le q4.1 q4.2, .last q4.1⟩)

theorem spn21 : StepOK (SpG text) 21 := prod5 rfl (fun t1 t2 t3 t4 t5 v1 v2 v3 v4 v5 v h1 h2 h3 h4 h5 h lo hi hs ib => by
  obtain ⟨u4, rfl, k4, rfl⟩ := h4
  obtain ⟨m4, hs, s5⟩ := hs.split
  obtain ⟨m3, hs, s4⟩ := hs.split
  obtain ⟨m2, hs, s3⟩ := hs.split
  obtain ⟨m1, s1, s2⟩ := hs.split
  have q1 : Sp text .ifChain _ _ _ v1 := h1 _ _ s1 (ind_left (ind_left (ind_left (ind_left ib))))
  have q2 : Sp text .elif_ _ _ _ v2 := h2 _ _ s2 (ind_right (ind_left (ind_left (ind_left ib))))
  have q3 : Sp text .expr _ _ _ v3 := h3 _ _ s3 (ind_right (ind_left (ind_left ib)))
  have q5 : Sp text .suite _ _ _ v5 := h5 _ _ s5 (ind_right ib)
  obtain ⟨e, he, rfl⟩ := map_some h
  exact blk_elif q1 q2 q3 s4.le q5.1 q5.2 he)

theorem spn22 : StepOK (SpG text) 22 := prod1 rfl (fun t1 v1 v h1 h lo hi hs ib => by
  have s1 := hs
  have q1 : Sp text .ifChain _ _ _ v1 := h1 _ _ s1 ib
  cases h
  exact q1.1)

theorem spn23 : StepOK (SpG text) 23 := prod4 rfl (fun t1 t2 t3 t4 v1 v2 v3 v4 v h1 h2 h3 h4 h lo hi hs ib => by
  obtain ⟨u2, rfl, k2, rfl⟩ := h2
  obtain ⟨u3, rfl, k3, rfl⟩ := h3
  obtain ⟨m3, hs, s4⟩ := hs.split
  obtain ⟨m2, hs, s3⟩ := hs.split
  obtain ⟨m1, s1, s2⟩ := hs.split
  have q1 : Sp text .ifChain _ _ _ v1 := h1 _ _ s1 (ind_left (ind_left (ind_left ib)))
  have q4 : Sp text .suite _ _ _ v4 := h4 _ _ s4 (ind_right ib)
  have f2 := s2.fix b!"else" k2 (by decide) (by decide)
  obtain ⟨e, he, rfl⟩ := map_some h
  exact blk_else q1 f2 s3.le q4.1 q4.2 he)

theorem spn24 : StepOK (SpG text) 24 := prod2 rfl (fun t1 t2 v1 v2 v h1 h2 h lo hi hs ib => by
  obtain ⟨u1, rfl, k1, rfl⟩ := h1
  obtain ⟨u2, rfl, k2, rfl⟩ := h2
  obtain ⟨m1, s1, s2⟩ := hs.split
  have f1 := s1.fix b!"else" k1 (by decide) (by decide)
  cases h
  exact ⟨f1.lo, Nat.le_trans f1.byteLe s2.le, .inl f1.at_⟩)

theorem spn25 : StepOK (SpG text) 25 := prod1 rfl (fun t1 v1 v h1 h lo hi hs ib => by
  obtain ⟨u1, rfl, k1, rfl⟩ := h1
  have s1 := hs
  have f1 := s1.fix b!"elif" k1 (by decide) (by decide)
  cases h
  exact ⟨f1.lo, f1.byteLe, .inr f1.at_⟩)

theorem spn26 : StepOK (SpG text) 26 := prod4 rfl (fun t1 t2 t3 t4 v1 v2 v3 v4 v h1 h2 h3 h4 h lo hi hs ib => by
  obtain ⟨u4, rfl, k4, rfl⟩ := h4
  obtain ⟨m3, hs, s4⟩ := hs.split
  obtain ⟨m2, hs, s3⟩ := hs.split
  obtain ⟨m1, s1, s2⟩ := hs.split
  have q1 : Sp text .smallStmt _ _ _ v1 := h1 _ _ s1 (ind_left (ind_left (ind_left ib)))
  have q2 : Sp text .smallStmtsContinuation _ _ _ v2 := h2 _ _ s2 (ind_right (ind_left (ind_left ib)))
  cases h
  exact ⟨(Exs.cons q1 q2).mono (Nat.le_refl _) (Nat.le_trans s3.le s4.le), by simp⟩)

theorem spn27 : StepOK (SpG text) 27 := prod0 rfl (fun v h lo hi hs ib => by
  cases h
  exact (Exs.nil hs.le : Exs text lo [] hi))

theorem spn28 : StepOK (SpG text) 28 := prod3 rfl (fun t1 t2 t3 v1 v2 v3 v h1 h2 h3 h lo hi hs ib => by
  obtain ⟨u2, rfl, k2, rfl⟩ := h2
  obtain ⟨m2, hs, s3⟩ := hs.split
  obtain ⟨m1, s1, s2⟩ := hs.split
  have q1 : Sp text .smallStmtsContinuation _ _ _ v1 := h1 _ _ s1 (ind_left (ind_left ib))
  have q3 : Sp text .smallStmt _ _ _ v3 := h3 _ _ s3 (ind_right ib)
  cases h
  exact q1.snoc (q3.mono s2.le (Nat.le_refl _)))

theorem spn29 : StepOK (SpG text) 29 := prod1 rfl (fun t1 v1 v h1 h lo hi hs ib => by
  have s1 := hs
  have q1 : Sp text .expr _ _ _ v1 := h1 _ _ s1 ib
  cases h
  exact q1)

theorem spn30 : StepOK (SpG text) 30 := prod2 rfl (fun t1 t2 v1 v2 v h1 h2 h lo hi hs ib => by
  obtain ⟨u1, rfl, k1, rfl⟩ := h1
  obtain ⟨m1, s1, s2⟩ := hs.split
  have q2 : Sp text .expr _ _ _ v2 := h2 _ _ s2 (ind_right ib)
  have f1 := s1.fix b!"return" k1 (by decide) (by decide)
  cases h
  exact ex_return f1 q2)

theorem spn31 : StepOK (SpG text) 31 := prod1 rfl (fun t1 v1 v h1 h lo hi hs ib => by
  obtain ⟨u1, rfl, k1, rfl⟩ := h1
  have s1 := hs
  have f1 := s1.fix b!"return" k1 (by decide) (by decide)
  cases h
  exact ex_return0 f1)

theorem spn32 : StepOK (SpG text) 32 := prod3 rfl (fun t1 t2 t3 v1 v2 v3 v h1 h2 h3 h lo hi hs ib => by
  obtain ⟨u2, rfl, k2, rfl⟩ := h2
  obtain ⟨m2, hs, s3⟩ := hs.split
  obtain ⟨m1, s1, s2⟩ := hs.split
  have q1 : Sp text .expr _ _ _ v1 := h1 _ _ s1 (ind_left (ind_left ib))
  have q3 : Sp text .expr _ _ _ v3 := h3 _ _ s3 (ind_right ib)
  cases h
  exact ex_binary q1 s2.tk q3)

theorem spn33 : StepOK (SpG text) 33 := prod3 rfl (fun t1 t2 t3 v1 v2 v3 v h1 h2 h3 h lo hi hs ib => by
  obtain ⟨u2, rfl, k2, rfl⟩ := h2
  obtain ⟨m2, hs, s3⟩ := hs.split
  obtain ⟨m1, s1, s2⟩ := hs.split
  have q1 : Sp text .expr _ _ _ v1 := h1 _ _ s1 (ind_left (ind_left ib))
  have q3 : Sp text .expr _ _ _ v3 := h3 _ _ s3 (ind_right ib)
  cases h
  exact ex_binary q1 s2.tk q3)

theorem spn34 : StepOK (SpG text) 34 := prod1 rfl (fun t1 v1 v h1 h lo hi hs ib => by
  obtain ⟨u1, rfl, k1, rfl⟩ := h1
  have s1 := hs
  cases h
  exact ex_branch s1.tk)

theorem spn35 : StepOK (SpG text) 35 := prod1 rfl (fun t1 v1 v h1 h lo hi hs ib => by
  obtain ⟨u1, rfl, k1, rfl⟩ := h1
  have s1 := hs
  cases h
  exact ex_branch s1.tk)

theorem spn36 : StepOK (SpG text) 36 := prod1 rfl (fun t1 v1 v h1 h lo hi hs ib => by
  obtain ⟨u1, rfl, k1, rfl⟩ := h1
  have s1 := hs
  cases h
  exact ex_branch s1.tk)

theorem spn37 : StepOK (SpG text) 37 := prod0 rfl (fun v h lo hi hs ib => by
  cases h
  exact trivial)

theorem spn38 : StepOK (SpG text) 38 := prod1 rfl (fun t1 v1 v h1 h lo hi hs ib => by
  obtain ⟨u1, rfl, k1, rfl⟩ := h1
  have s1 := hs
  cases h
  exact trivial)

theorem spn39 : StepOK (SpG text) 39 := prod1 rfl (fun t1 v1 v h1 h lo hi hs ib => by
  have s1 := hs
  have q1 : Sp text .ident _ _ _ v1 := h1 _ _ s1 ib
  cases h
  exact ident_ex q1)

theorem spn40 : StepOK (SpG text) 40 := prod1 rfl (fun t1 v1 v h1 h lo hi hs ib => by
  have s1 := hs
  have q1 : Sp text .number _ _ _ v1 := h1 _ _ s1 ib
  cases h
  exact q1)

theorem spn41 : StepOK (SpG text) 41 := prod1 rfl (fun t1 v1 v h1 h lo hi hs ib => by
  have s1 := hs
  have q1 : Sp text .string _ _ _ v1 := h1 _ _ s1 ib
  cases h
  exact ident_ex q1)

theorem spn42 : StepOK (SpG text) 42 := prod3 rfl (fun t1 t2 t3 v1 v2 v3 v h1 h2 h3 h lo hi hs ib => by
  obtain ⟨u2, rfl, k2, rfl⟩ := h2
  obtain ⟨u3, rfl, k3, rfl⟩ := h3
  obtain ⟨m2, hs, s3⟩ := hs.split
  obtain ⟨m1, s1, s2⟩ := hs.split
  have q1 : Sp text .primaryExpr _ _ _ v1 := h1 _ _ s1 (ind_left (ind_left ib))
  have f2 := s2.fix b!"." k2 (by decide) (by decide)
  cases h
  exact ex_dot q1 f2 s3.tk)

theorem spn43 : StepOK (SpG text) 43 := prod8 rfl (fun t1 t2 t3 t4 t5 t6 t7 t8 v1 v2 v3 v4 v5 v6 v7 v8 v h1 h2 h3 h4 h5 h6 h7 h8 h lo hi hs ib => by
  obtain ⟨u1, rfl, k1, rfl⟩ := h1
  obtain ⟨u2, rfl, k2, rfl⟩ := h2
  obtain ⟨u8, rfl, k8, rfl⟩ := h8
  obtain ⟨m7, hs, s8⟩ := hs.split
  obtain ⟨m6, hs, s7⟩ := hs.split
  obtain ⟨m5, hs, s6⟩ := hs.split
  obtain ⟨m4, hs, s5⟩ := hs.split
  obtain ⟨m3, hs, s4⟩ := hs.split
  obtain ⟨m2, hs, s3⟩ := hs.split
  obtain ⟨m1, s1, s2⟩ := hs.split
  have q4 : Sp text .string _ _ _ v4 := h4 _ _ s4 (ind_right (ind_left (ind_left (ind_left (ind_left ib)))))
  have f1 := s1.fix b!"load" k1 (by decide) (by decide)
  have f8 := s8.fix b!")" k8 (by decide) (by decide)
  cases h
  exact ex_load f1 (Nat.le_trans s2.le s3.le) q4 (Nat.le_trans s5.le (Nat.le_trans s6.le s7.le)) f8)

theorem spn44 : StepOK (SpG text) 44 := prod4 rfl (fun t1 t2 t3 t4 v1 v2 v3 v4 v h1 h2 h3 h4 h lo hi hs ib => by
  obtain ⟨u2, rfl, k2, rfl⟩ := h2
  obtain ⟨u4, rfl, k4, rfl⟩ := h4
  obtain ⟨m3, hs, s4⟩ := hs.split
  obtain ⟨m2, hs, s3⟩ := hs.split
  obtain ⟨m1, s1, s2⟩ := hs.split
  have q1 : Sp text .primaryExpr _ _ _ v1 := h1 _ _ s1 (ind_left (ind_left (ind_left ib)))
  have q3 : Sp text .argumentsOpt _ _ _ v3 := h3 _ _ s3 (ind_right (ind_left ib))
  have f2 := s2.fix b!"(" k2 (by decide) (by decide)
  have f4 := s4.fix b!")" k4 (by decide) (by decide)
  cases h
  exact ex_call q1 f2 q3 f4)

theorem spn45 : StepOK (SpG text) 45 := prod4 rfl (fun t1 t2 t3 t4 v1 v2 v3 v4 v h1 h2 h3 h4 h lo hi hs ib => by
  obtain ⟨u2, rfl, k2, rfl⟩ := h2
  obtain ⟨u4, rfl, k4, rfl⟩ := h4
  obtain ⟨m3, hs, s4⟩ := hs.split
  obtain ⟨m2, hs, s3⟩ := hs.split
  obtain ⟨m1, s1, s2⟩ := hs.split
  have q1 : Sp text .primaryExpr _ _ _ v1 := h1 _ _ s1 (ind_left (ind_left (ind_left ib)))
  have q3 : Sp text .expr _ _ _ v3 := h3 _ _ s3 (ind_right (ind_left ib))
  have f2 := s2.fix b!"[" k2 (by decide) (by decide)
  have f4 := s4.fix b!"]" k4 (by decide) (by decide)
  cases h
  exact ex_index q1 f2 q3 f4)

theorem spn46 : StepOK (SpG text) 46 := prod6 rfl (fun t1 t2 t3 t4 t5 t6 v1 v2 v3 v4 v5 v6 v h1 h2 h3 h4 h5 h6 h lo hi hs ib => by
  obtain ⟨u2, rfl, k2, rfl⟩ := h2
  obtain ⟨u4, rfl, k4, rfl⟩ := h4
  obtain ⟨u6, rfl, k6, rfl⟩ := h6
  obtain ⟨m5, hs, s6⟩ := hs.split
  obtain ⟨m4, hs, s5⟩ := hs.split
  obtain ⟨m3, hs, s4⟩ := hs.split
  obtain ⟨m2, hs, s3⟩ := hs.split
  obtain ⟨m1, s1, s2⟩ := hs.split
  have q1 : Sp text .primaryExpr _ _ _ v1 := h1 _ _ s1 (ind_left (ind_left (ind_left (ind_left (ind_left ib)))))
  have q3 : Sp text .exprOpt _ _ _ v3 := h3 _ _ s3 (ind_right (ind_left (ind_left (ind_left ib))))
  have q5 : Sp text .testOpt _ _ _ v5 := h5 _ _ s5 (ind_right (ind_left ib))
  have f2 := s2.fix b!"[" k2 (by decide) (by decide)
  have f4 := s4.fix b!":" k4 (by decide) (by decide)
  have f6 := s6.fix b!"]" k6 (by decide) (by decide)
  cases h
  exact ex_slice q1 f2 q3 f4 q5 (ExO.none (Nat.le_refl _)) f6)

theorem spn47 : StepOK (SpG text) 47 := prod8 rfl (fun t1 t2 t3 t4 t5 t6 t7 t8 v1 v2 v3 v4 v5 v6 v7 v8 v h1 h2 h3 h4 h5 h6 h7 h8 h lo hi hs ib => by
  obtain ⟨u2, rfl, k2, rfl⟩ := h2
  obtain ⟨u4, rfl, k4, rfl⟩ := h4
  obtain ⟨u6, rfl, k6, rfl⟩ := h6
  obtain ⟨u8, rfl, k8, rfl⟩ := h8
  obtain ⟨m7, hs, s8⟩ := hs.split
  obtain ⟨m6, hs, s7⟩ := hs.split
  obtain ⟨m5, hs, s6⟩ := hs.split
  obtain ⟨m4, hs, s5⟩ := hs.split
  obtain ⟨m3, hs, s4⟩ := hs.split
  obtain ⟨m2, hs, s3⟩ := hs.split
  obtain ⟨m1, s1, s2⟩ := hs.split
  have q1 : Sp text .primaryExpr _ _ _ v1 := h1 _ _ s1 (ind_left (ind_left (ind_left (ind_left (ind_left (ind_left (ind_left ib)))))))
  have q3 : Sp text .exprOpt _ _ _ v3 := h3 _ _ s3 (ind_right (ind_left (ind_left (ind_left (ind_left (ind_left ib))))))
  have q5 : Sp text .testOpt _ _ _ v5 := h5 _ _ s5 (ind_right (ind_left (ind_left (ind_left ib))))
  have q7 : Sp text .testOpt _ _ _ v7 := h7 _ _ s7 (ind_right (ind_left ib))
  have f2 := s2.fix b!"[" k2 (by decide) (by decide)
  have f4 := s4.fix b!":" k4 (by decide) (by decide)
  have f8 := s8.fix b!"]" k8 (by decide) (by decide)
  cases h
  exact ex_slice q1 f2 q3 f4 q5 (q7.mono s6.le (Nat.le_refl _)) f8)

theorem spn48 : StepOK (SpG text) 48 := prod3 rfl (fun t1 t2 t3 v1 v2 v3 v h1 h2 h3 h lo hi hs ib => by
  obtain ⟨u1, rfl, k1, rfl⟩ := h1
  obtain ⟨u3, rfl, k3, rfl⟩ := h3
  obtain ⟨m2, hs, s3⟩ := hs.split
  obtain ⟨m1, s1, s2⟩ := hs.split
  have q2 : Sp text .testsOpt _ _ _ v2 := h2 _ _ s2 (ind_right (ind_left ib))
  have f1 := s1.fix b!"[" k1 (by decide) (by decide)
  have f3 := s3.fix b!"]" k3 (by decide) (by decide)
  cases h
  exact ex_list f1 q2 f3)

theorem spn49 : StepOK (SpG text) 49 := prod4 rfl (fun t1 t2 t3 t4 v1 v2 v3 v4 v h1 h2 h3 h4 h lo hi hs ib => by
  obtain ⟨u1, rfl, k1, rfl⟩ := h1
  obtain ⟨u4, rfl, k4, rfl⟩ := h4
  obtain ⟨m3, hs, s4⟩ := hs.split
  obtain ⟨m2, hs, s3⟩ := hs.split
  obtain ⟨m1, s1, s2⟩ := hs.split
  have q2 : Sp text .test _ _ _ v2 := h2 _ _ s2 (ind_right (ind_left (ind_left ib)))
  have q3 : Sp text .forClausesWithIfClausesOpt _ _ _ v3 := h3 _ _ s3 (ind_right (ind_left ib))
  have f1 := s1.fix b!"[" k1 (by decide) (by decide)
  have f4 := s4.fix b!"]" k4 (by decide) (by decide)
  cases h
  exact ex_compr0 f1 q2 q3 f4)

theorem spn50 : StepOK (SpG text) 50 := prod4 rfl (fun t1 t2 t3 t4 v1 v2 v3 v4 v h1 h2 h3 h4 h lo hi hs ib => by
  obtain ⟨u1, rfl, k1, rfl⟩ := h1
  obtain ⟨u4, rfl, k4, rfl⟩ := h4
  obtain ⟨m3, hs, s4⟩ := hs.split
  obtain ⟨m2, hs, s3⟩ := hs.split
  obtain ⟨m1, s1, s2⟩ := hs.split
  have q2 : Sp text .keyvalue _ _ _ v2 := h2 _ _ s2 (ind_right (ind_left (ind_left ib)))
  have q3 : Sp text .forClausesWithIfClausesOpt _ _ _ v3 := h3 _ _ s3 (ind_right (ind_left ib))
  have f1 := s1.fix b!"{" k1 (by decide) (by decide)
  have f4 := s4.fix b!"}" k4 (by decide) (by decide)
  cases h
  exact ex_compr1 f1 q2 q3 f4)

theorem spn51 : StepOK (SpG text) 51 := prod3 rfl (fun t1 t2 t3 v1 v2 v3 v h1 h2 h3 h lo hi hs ib => by
  obtain ⟨u1, rfl, k1, rfl⟩ := h1
  obtain ⟨u3, rfl, k3, rfl⟩ := h3
  obtain ⟨m2, hs, s3⟩ := hs.split
  obtain ⟨m1, s1, s2⟩ := hs.split
  have q2 : Sp text .keyvalues _ _ _ v2 := h2 _ _ s2 (ind_right (ind_left ib))
  have f1 := s1.fix b!"{" k1 (by decide) (by decide)
  have f3 := s3.fix b!"}" k3 (by decide) (by decide)
  cases h
  exact ex_dict f1 q2 f3)

theorem spn52 : StepOK (SpG text) 52 := prod4 rfl (fun t1 t2 t3 t4 v1 v2 v3 v4 v h1 h2 h3 h4 h lo hi hs ib => by
  obtain ⟨u1, rfl, k1, rfl⟩ := h1
  obtain ⟨u4, rfl, k4, rfl⟩ := h4
  obtain ⟨m3, hs, s4⟩ := hs.split
  obtain ⟨m2, hs, s3⟩ := hs.split
  obtain ⟨m1, s1, s2⟩ := hs.split
  have q2 : Sp text .tests _ _ _ v2 := h2 _ _ s2 (ind_right (ind_left (ind_left ib)))
  have f1 := s1.fix b!"{" k1 (by decide) (by decide)
  have f4 := s4.fix b!"}" k4 (by decide) (by decide)
  cases h
  exact ex_set f1 (q2.mono (Nat.le_refl _) s3.le) f4)

theorem spn53 : StepOK (SpG text) 53 := prod3 rfl (fun t1 t2 t3 v1 v2 v3 v h1 h2 h3 h lo hi hs ib => by
  obtain ⟨u1, rfl, k1, rfl⟩ := h1
  obtain ⟨u3, rfl, k3, rfl⟩ := h3
  obtain ⟨m2, hs, s3⟩ := hs.split
  obtain ⟨m1, s1, s2⟩ := hs.split
  have q2 : Sp text .testsOpt _ _ _ v2 := h2 _ _ s2 (ind_right (ind_left ib))
  have f1 := s1.fix b!"(" k1 (by decide) (by decide)
  have f3 := s3.fix b!")" k3 (by decide) (by decide)
  rw [sem54] at h
  cases h
  exact ex_parenOrTuple f1 q2 f3)

theorem spn54 : StepOK (SpG text) 54 := prod0 rfl (fun v h lo hi hs ib => by
  cases h
  exact (Exs.nil hs.le : Exs text lo [] hi))

theorem spn55 : StepOK (SpG text) 55 := prod2 rfl (fun t1 t2 v1 v2 v h1 h2 h lo hi hs ib => by
  obtain ⟨m1, s1, s2⟩ := hs.split
  have q1 : Sp text .arguments _ _ _ v1 := h1 _ _ s1 (ind_left ib)
  cases h
  exact q1.mono (Nat.le_refl _) s2.le)

theorem spn56 : StepOK (SpG text) 56 := prod2 rfl (fun t1 t2 v1 v2 v h1 h2 h lo hi hs ib => by
  obtain ⟨m1, s1, s2⟩ := hs.split
  have q2 : Sp text .argument _ _ _ v2 := h2 _ _ s2 (ind_right ib)
  cases h
  exact (Exs.one q2).mono s1.le (Nat.le_refl _))

theorem spn57 : StepOK (SpG text) 57 := prod3 rfl (fun t1 t2 t3 v1 v2 v3 v h1 h2 h3 h lo hi hs ib => by
  obtain ⟨m2, hs, s3⟩ := hs.split
  obtain ⟨m1, s1, s2⟩ := hs.split
  have q1 : Sp text .arguments _ _ _ v1 := h1 _ _ s1 (ind_left (ind_left ib))
  have q3 : Sp text .argument _ _ _ v3 := h3 _ _ s3 (ind_right ib)
  cases h
  exact q1.snoc (q3.mono s2.le (Nat.le_refl _)))

theorem spn58 : StepOK (SpG text) 58 := prod1 rfl (fun t1 v1 v h1 h lo hi hs ib => by
  have s1 := hs
  have q1 : Sp text .test _ _ _ v1 := h1 _ _ s1 ib
  cases h
  exact q1)

theorem spn59 : StepOK (SpG text) 59 := prod3 rfl (fun t1 t2 t3 v1 v2 v3 v h1 h2 h3 h lo hi hs ib => by
  obtain ⟨u2, rfl, k2, rfl⟩ := h2
  obtain ⟨m2, hs, s3⟩ := hs.split
  obtain ⟨m1, s1, s2⟩ := hs.split
  have q1 : Sp text .ident _ _ _ v1 := h1 _ _ s1 (ind_left (ind_left ib))
  have q3 : Sp text .test _ _ _ v3 := h3 _ _ s3 (ind_right ib)
  cases h
  exact ex_binary (ident_ex q1) s2.tk q3)

theorem spn60 : StepOK (SpG text) 60 := prod2 rfl (fun t1 t2 v1 v2 v h1 h2 h lo hi hs ib => by
  obtain ⟨u1, rfl, k1, rfl⟩ := h1
  obtain ⟨m1, s1, s2⟩ := hs.split
  have q2 : Sp text .test _ _ _ v2 := h2 _ _ s2 (ind_right ib)
  cases h
  exact ex_unary s1.tk q2)

theorem spn61 : StepOK (SpG text) 61 := prod2 rfl (fun t1 t2 v1 v2 v h1 h2 h lo hi hs ib => by
  obtain ⟨u1, rfl, k1, rfl⟩ := h1
  obtain ⟨m1, s1, s2⟩ := hs.split
  have q2 : Sp text .test _ _ _ v2 := h2 _ _ s2 (ind_right ib)
  cases h
  exact ex_unary s1.tk q2)

theorem spn62 : StepOK (SpG text) 62 := prod1 rfl (fun t1 v1 v h1 h lo hi hs ib => by
  have s1 := hs
  cases h
  exact trivial)

theorem spn63 : StepOK (SpG text) 63 := prod3 rfl (fun t1 t2 t3 v1 v2 v3 v h1 h2 h3 h lo hi hs ib => by
  obtain ⟨u2, rfl, k2, rfl⟩ := h2
  obtain ⟨m2, hs, s3⟩ := hs.split
  obtain ⟨m1, s1, s2⟩ := hs.split
  cases h
  exact trivial)

theorem spn64 : StepOK (SpG text) 64 := prod1 rfl (fun t1 v1 v h1 h lo hi hs ib => by
  have s1 := hs
  cases h
  exact trivial)

theorem spn65 : StepOK (SpG text) 65 := prod3 rfl (fun t1 t2 t3 v1 v2 v3 v h1 h2 h3 h lo hi hs ib => by
  obtain ⟨u2, rfl, k2, rfl⟩ := h2
  obtain ⟨m2, hs, s3⟩ := hs.split
  obtain ⟨m1, s1, s2⟩ := hs.split
  cases h
  exact trivial)

theorem spn66 : StepOK (SpG text) 66 := prod0 rfl (fun v h lo hi hs ib => by
  cases h
  exact (Exs.nil hs.le : Exs text lo [] hi))

theorem spn67 : StepOK (SpG text) 67 := prod2 rfl (fun t1 t2 v1 v2 v h1 h2 h lo hi hs ib => by
  obtain ⟨m1, s1, s2⟩ := hs.split
  have q1 : Sp text .parameters _ _ _ v1 := h1 _ _ s1 (ind_left ib)
  cases h
  exact q1.mono (Nat.le_refl _) s2.le)

theorem spn68 : StepOK (SpG text) 68 := prod0 rfl (fun v h lo hi hs ib => by
  cases h
  exact (Exs.nil hs.le : Exs text lo [] hi))

theorem spn69 : StepOK (SpG text) 69 := prod2 rfl (fun t1 t2 v1 v2 v h1 h2 h lo hi hs ib => by
  obtain ⟨m1, s1, s2⟩ := hs.split
  have q1 : Sp text .parametersType _ _ _ v1 := h1 _ _ s1 (ind_left ib)
  cases h
  exact q1.mono (Nat.le_refl _) s2.le)

theorem spn70 : StepOK (SpG text) 70 := prod1 rfl (fun t1 v1 v h1 h lo hi hs ib => by
  have s1 := hs
  have q1 : Sp text .parameter _ _ _ v1 := h1 _ _ s1 ib
  cases h
  exact Exs.one q1)

theorem spn71 : StepOK (SpG text) 71 := prod3 rfl (fun t1 t2 t3 v1 v2 v3 v h1 h2 h3 h lo hi hs ib => by
  obtain ⟨u2, rfl, k2, rfl⟩ := h2
  obtain ⟨m2, hs, s3⟩ := hs.split
  obtain ⟨m1, s1, s2⟩ := hs.split
  have q1 : Sp text .parameters _ _ _ v1 := h1 _ _ s1 (ind_left (ind_left ib))
  have q3 : Sp text .parameter _ _ _ v3 := h3 _ _ s3 (ind_right ib)
  cases h
  exact q1.snoc (q3.mono s2.le (Nat.le_refl _)))

theorem spn72 : StepOK (SpG text) 72 := prod1 rfl (fun t1 v1 v h1 h lo hi hs ib => by
  have s1 := hs
  have q1 : Sp text .parameterType _ _ _ v1 := h1 _ _ s1 ib
  cases h
  exact Exs.one q1)

theorem spn73 : StepOK (SpG text) 73 := prod3 rfl (fun t1 t2 t3 v1 v2 v3 v h1 h2 h3 h lo hi hs ib => by
  obtain ⟨u2, rfl, k2, rfl⟩ := h2
  obtain ⟨m2, hs, s3⟩ := hs.split
  obtain ⟨m1, s1, s2⟩ := hs.split
  have q1 : Sp text .parametersType _ _ _ v1 := h1 _ _ s1 (ind_left (ind_left ib))
  have q3 : Sp text .parameterType _ _ _ v3 := h3 _ _ s3 (ind_right ib)
  cases h
  exact q1.snoc (q3.mono s2.le (Nat.le_refl _)))

theorem spn74 : StepOK (SpG text) 74 := prod1 rfl (fun t1 v1 v h1 h lo hi hs ib => by
  have s1 := hs
  have q1 : Sp text .ident _ _ _ v1 := h1 _ _ s1 ib
  cases h
  exact ident_ex q1)

theorem spn75 : StepOK (SpG text) 75 := prod3 rfl (fun t1 t2 t3 v1 v2 v3 v h1 h2 h3 h lo hi hs ib => by
  obtain ⟨u2, rfl, k2, rfl⟩ := h2
  obtain ⟨m2, hs, s3⟩ := hs.split
  obtain ⟨m1, s1, s2⟩ := hs.split
  have q1 : Sp text .ident _ _ _ v1 := h1 _ _ s1 (ind_left (ind_left ib))
  have q3 : Sp text .test _ _ _ v3 := h3 _ _ s3 (ind_right ib)
  cases h
  exact ex_binary (ident_ex q1) s2.tk q3)

theorem spn76 : StepOK (SpG text) 76 := prod2 rfl (fun t1 t2 v1 v2 v h1 h2 h lo hi hs ib => by
  obtain ⟨u1, rfl, k1, rfl⟩ := h1
  obtain ⟨m1, s1, s2⟩ := hs.split
  have q2 : Sp text .ident _ _ _ v2 := h2 _ _ s2 (ind_right ib)
  cases h
  exact ex_unary s1.tk (ident_ex q2))

theorem spn77 : StepOK (SpG text) 77 := prod1 rfl (fun t1 v1 v h1 h lo hi hs ib => by
  obtain ⟨u1, rfl, k1, rfl⟩ := h1
  have s1 := hs
  cases h
  exact ex_star s1.tk (tok_fixed s1.one.2.1.text k1 (by decide) (by decide)))

theorem spn78 : StepOK (SpG text) 78 := prod2 rfl (fun t1 t2 v1 v2 v h1 h2 h lo hi hs ib => by
  obtain ⟨u1, rfl, k1, rfl⟩ := h1
  obtain ⟨m1, s1, s2⟩ := hs.split
  have q2 : Sp text .ident _ _ _ v2 := h2 _ _ s2 (ind_right ib)
  cases h
  exact ex_unary s1.tk (ident_ex q2))

theorem spn79 : StepOK (SpG text) 79 := prod1 rfl (fun t1 v1 v h1 h lo hi hs ib => by
  have s1 := hs
  have q1 : Sp text .parameter _ _ _ v1 := h1 _ _ s1 ib
  cases h
  exact q1)

theorem spn80 : StepOK (SpG text) 80 := prod3 rfl (fun t1 t2 t3 v1 v2 v3 v h1 h2 h3 h lo hi hs ib => by
  obtain ⟨u2, rfl, k2, rfl⟩ := h2
  obtain ⟨m2, hs, s3⟩ := hs.split
  obtain ⟨m1, s1, s2⟩ := hs.split
  have q1 : Sp text .ident _ _ _ v1 := h1 _ _ s1 (ind_left (ind_left ib))
  have q3 : Sp text .test _ _ _ v3 := h3 _ _ s3 (ind_right ib)
  cases h
  exact ex_typed q1 s2.le q3)

theorem spn81 : StepOK (SpG text) 81 := prod5 rfl (fun t1 t2 t3 t4 t5 v1 v2 v3 v4 v5 v h1 h2 h3 h4 h5 h lo hi hs ib => by
  obtain ⟨u2, rfl, k2, rfl⟩ := h2
  obtain ⟨u4, rfl, k4, rfl⟩ := h4
  obtain ⟨m4, hs, s5⟩ := hs.split
  obtain ⟨m3, hs, s4⟩ := hs.split
  obtain ⟨m2, hs, s3⟩ := hs.split
  obtain ⟨m1, s1, s2⟩ := hs.split
  have q1 : Sp text .ident _ _ _ v1 := h1 _ _ s1 (ind_left (ind_left (ind_left (ind_left ib))))
  have q3 : Sp text .test _ _ _ v3 := h3 _ _ s3 (ind_right (ind_left (ind_left ib)))
  have q5 : Sp text .test _ _ _ v5 := h5 _ _ s5 (ind_right ib)
  cases h
  exact ex_binary (ex_typed q1 s2.le q3) s4.tk q5)

theorem spn82 : StepOK (SpG text) 82 := prod4 rfl (fun t1 t2 t3 t4 v1 v2 v3 v4 v h1 h2 h3 h4 h lo hi hs ib => by
  obtain ⟨u1, rfl, k1, rfl⟩ := h1
  obtain ⟨u3, rfl, k3, rfl⟩ := h3
  obtain ⟨m3, hs, s4⟩ := hs.split
  obtain ⟨m2, hs, s3⟩ := hs.split
  obtain ⟨m1, s1, s2⟩ := hs.split
  have q2 : Sp text .ident _ _ _ v2 := h2 _ _ s2 (ind_right (ind_left (ind_left ib)))
  have q4 : Sp text .test _ _ _ v4 := h4 _ _ s4 (ind_right ib)
  cases h
  exact ex_unary s1.tk (ex_typed q2 s3.le q4))

theorem spn83 : StepOK (SpG text) 83 := prod4 rfl (fun t1 t2 t3 t4 v1 v2 v3 v4 v h1 h2 h3 h4 h lo hi hs ib => by
  obtain ⟨u1, rfl, k1, rfl⟩ := h1
  obtain ⟨u3, rfl, k3, rfl⟩ := h3
  obtain ⟨m3, hs, s4⟩ := hs.split
  obtain ⟨m2, hs, s3⟩ := hs.split
  obtain ⟨m1, s1, s2⟩ := hs.split
  have q2 : Sp text .ident _ _ _ v2 := h2 _ _ s2 (ind_right (ind_left (ind_left ib)))
  have q4 : Sp text .test _ _ _ v4 := h4 _ _ s4 (ind_right ib)
  cases h
  exact ex_unary s1.tk (ex_typed q2 s3.le q4))

theorem spn84 : StepOK (SpG text) 84 := prod1 rfl (fun t1 v1 v h1 h lo hi hs ib => by
  have s1 := hs
  have q1 : Sp text .test _ _ _ v1 := h1 _ _ s1 ib
  cases h
  exact q1)

theorem spn85 : StepOK (SpG text) 85 := prod3 rfl (fun t1 t2 t3 v1 v2 v3 v h1 h2 h3 h lo hi hs ib => by
  obtain ⟨u2, rfl, k2, rfl⟩ := h2
  obtain ⟨m2, hs, s3⟩ := hs.split
  obtain ⟨m1, s1, s2⟩ := hs.split
  have q1 : Sp text .expr _ _ _ v1 := h1 _ _ s1 (ind_left (ind_left ib))
  have q3 : Sp text .test _ _ _ v3 := h3 _ _ s3 (ind_right ib)
  cases h
  exact ex_tupleAppend q1 s2.le q3)

theorem spn86 : StepOK (SpG text) 86 := prod0 rfl (fun v h lo hi hs ib => by
  cases h
  exact (ExO.none hs.le : ExO text lo .nil hi))

theorem spn87 : StepOK (SpG text) 87 := prod1 rfl (fun t1 v1 v h1 h lo hi hs ib => by
  have s1 := hs
  have q1 : Sp text .expr _ _ _ v1 := h1 _ _ s1 ib
  cases h
  exact ExO.some q1)

theorem spn88 : StepOK (SpG text) 88 := prod1 rfl (fun t1 v1 v h1 h lo hi hs ib => by
  have s1 := hs
  have q1 : Sp text .primaryExpr _ _ _ v1 := h1 _ _ s1 ib
  cases h
  exact q1)

theorem spn89 : StepOK (SpG text) 89 := prod4 rfl (fun t1 t2 t3 t4 v1 v2 v3 v4 v h1 h2 h3 h4 h lo hi hs ib => by
  obtain ⟨u1, rfl, k1, rfl⟩ := h1
  obtain ⟨u3, rfl, k3, rfl⟩ := h3
  obtain ⟨m3, hs, s4⟩ := hs.split
  obtain ⟨m2, hs, s3⟩ := hs.split
  obtain ⟨m1, s1, s2⟩ := hs.split
  have q2 : Sp text .parametersOpt _ _ _ v2 := h2 _ _ s2 (ind_right (ind_left (ind_left ib)))
  have q4 : Sp text .expr _ _ _ v4 := h4 _ _ s4 (ind_right ib)
  have f1 := s1.fix b!"lambda" k1 (by decide) (by decide)
  cases h
  exact ex_lambda f1 q2 s3.le q4)

theorem spn90 : StepOK (SpG text) 90 := prod2 rfl (fun t1 t2 v1 v2 v h1 h2 h lo hi hs ib => by
  obtain ⟨u1, rfl, k1, rfl⟩ := h1
  obtain ⟨m1, s1, s2⟩ := hs.split
  have q2 : Sp text .test _ _ _ v2 := h2 _ _ s2 (ind_right ib)
  cases h
  exact ex_unary s1.tk q2)

theorem spn91 : StepOK (SpG text) 91 := prod2 rfl (fun t1 t2 v1 v2 v h1 h2 h lo hi hs ib => by
  obtain ⟨u1, rfl, k1, rfl⟩ := h1
  obtain ⟨m1, s1, s2⟩ := hs.split
  have q2 : Sp text .test _ _ _ v2 := h2 _ _ s2 (ind_right ib)
  cases h
  exact ex_unary s1.tk q2)

theorem spn92 : StepOK (SpG text) 92 := prod2 rfl (fun t1 t2 v1 v2 v h1 h2 h lo hi hs ib => by
  obtain ⟨u1, rfl, k1, rfl⟩ := h1
  obtain ⟨m1, s1, s2⟩ := hs.split
  have q2 : Sp text .test _ _ _ v2 := h2 _ _ s2 (ind_right ib)
  cases h
  exact ex_unary s1.tk q2)

theorem spn93 : StepOK (SpG text) 93 := prod2 rfl (fun t1 t2 v1 v2 v h1 h2 h lo hi hs ib => by
  obtain ⟨u1, rfl, k1, rfl⟩ := h1
  obtain ⟨m1, s1, s2⟩ := hs.split
  have q2 : Sp text .test _ _ _ v2 := h2 _ _ s2 (ind_right ib)
  cases h
  exact ex_unary s1.tk q2)

theorem spn94 : StepOK (SpG text) 94 := prod3 rfl (fun t1 t2 t3 v1 v2 v3 v h1 h2 h3 h lo hi hs ib => by
  obtain ⟨u2, rfl, k2, rfl⟩ := h2
  obtain ⟨m2, hs, s3⟩ := hs.split
  obtain ⟨m1, s1, s2⟩ := hs.split
  have q1 : Sp text .test _ _ _ v1 := h1 _ _ s1 (ind_left (ind_left ib))
  have q3 : Sp text .test _ _ _ v3 := h3 _ _ s3 (ind_right ib)
  cases h
  exact ex_binary q1 s2.tk q3)

theorem spn95 : StepOK (SpG text) 95 := prod3 rfl (fun t1 t2 t3 v1 v2 v3 v h1 h2 h3 h lo hi hs ib => by
  obtain ⟨u2, rfl, k2, rfl⟩ := h2
  obtain ⟨m2, hs, s3⟩ := hs.split
  obtain ⟨m1, s1, s2⟩ := hs.split
  have q1 : Sp text .test _ _ _ v1 := h1 _ _ s1 (ind_left (ind_left ib))
  have q3 : Sp text .test _ _ _ v3 := h3 _ _ s3 (ind_right ib)
  cases h
  exact ex_binary q1 s2.tk q3)

theorem spn96 : StepOK (SpG text) 96 := prod3 rfl (fun t1 t2 t3 v1 v2 v3 v h1 h2 h3 h lo hi hs ib => by
  obtain ⟨u2, rfl, k2, rfl⟩ := h2
  obtain ⟨m2, hs, s3⟩ := hs.split
  obtain ⟨m1, s1, s2⟩ := hs.split
  have q1 : Sp text .test _ _ _ v1 := h1 _ _ s1 (ind_left (ind_left ib))
  have q3 : Sp text .test _ _ _ v3 := h3 _ _ s3 (ind_right ib)
  cases h
  exact ex_binary q1 s2.tk q3)

theorem spn97 : StepOK (SpG text) 97 := prod3 rfl (fun t1 t2 t3 v1 v2 v3 v h1 h2 h3 h lo hi hs ib => by
  obtain ⟨u2, rfl, k2, rfl⟩ := h2
  obtain ⟨m2, hs, s3⟩ := hs.split
  obtain ⟨m1, s1, s2⟩ := hs.split
  have q1 : Sp text .test _ _ _ v1 := h1 _ _ s1 (ind_left (ind_left ib))
  have q3 : Sp text .test _ _ _ v3 := h3 _ _ s3 (ind_right ib)
  cases h
  exact ex_binary q1 s2.tk q3)

theorem spn98 : StepOK (SpG text) 98 := prod3 rfl (fun t1 t2 t3 v1 v2 v3 v h1 h2 h3 h lo hi hs ib => by
  obtain ⟨u2, rfl, k2, rfl⟩ := h2
  obtain ⟨m2, hs, s3⟩ := hs.split
  obtain ⟨m1, s1, s2⟩ := hs.split
  have q1 : Sp text .test _ _ _ v1 := h1 _ _ s1 (ind_left (ind_left ib))
  have q3 : Sp text .test _ _ _ v3 := h3 _ _ s3 (ind_right ib)
  cases h
  exact ex_binary q1 s2.tk q3)

theorem spn99 : StepOK (SpG text) 99 := prod3 rfl (fun t1 t2 t3 v1 v2 v3 v h1 h2 h3 h lo hi hs ib => by
  obtain ⟨u2, rfl, k2, rfl⟩ := h2
  obtain ⟨m2, hs, s3⟩ := hs.split
  obtain ⟨m1, s1, s2⟩ := hs.split
  have q1 : Sp text .test _ _ _ v1 := h1 _ _ s1 (ind_left (ind_left ib))
  have q3 : Sp text .test _ _ _ v3 := h3 _ _ s3 (ind_right ib)
  cases h
  exact ex_binary q1 s2.tk q3)

theorem spn100 : StepOK (SpG text) 100 := prod3 rfl (fun t1 t2 t3 v1 v2 v3 v h1 h2 h3 h lo hi hs ib => by
  obtain ⟨u2, rfl, k2, rfl⟩ := h2
  obtain ⟨m2, hs, s3⟩ := hs.split
  obtain ⟨m1, s1, s2⟩ := hs.split
  have q1 : Sp text .test _ _ _ v1 := h1 _ _ s1 (ind_left (ind_left ib))
  have q3 : Sp text .test _ _ _ v3 := h3 _ _ s3 (ind_right ib)
  cases h
  exact ex_binary q1 s2.tk q3)

theorem spn101 : StepOK (SpG text) 101 := prod3 rfl (fun t1 t2 t3 v1 v2 v3 v h1 h2 h3 h lo hi hs ib => by
  obtain ⟨u2, rfl, k2, rfl⟩ := h2
  obtain ⟨m2, hs, s3⟩ := hs.split
  obtain ⟨m1, s1, s2⟩ := hs.split
  have q1 : Sp text .test _ _ _ v1 := h1 _ _ s1 (ind_left (ind_left ib))
  have q3 : Sp text .test _ _ _ v3 := h3 _ _ s3 (ind_right ib)
  cases h
  exact ex_binary q1 s2.tk q3)

theorem spn102 : StepOK (SpG text) 102 := prod3 rfl (fun t1 t2 t3 v1 v2 v3 v h1 h2 h3 h lo hi hs ib => by
  obtain ⟨u2, rfl, k2, rfl⟩ := h2
  obtain ⟨m2, hs, s3⟩ := hs.split
  obtain ⟨m1, s1, s2⟩ := hs.split
  have q1 : Sp text .test _ _ _ v1 := h1 _ _ s1 (ind_left (ind_left ib))
  have q3 : Sp text .test _ _ _ v3 := h3 _ _ s3 (ind_right ib)
  cases h
  exact ex_binary q1 s2.tk q3)

theorem spn103 : StepOK (SpG text) 103 := prod3 rfl (fun t1 t2 t3 v1 v2 v3 v h1 h2 h3 h lo hi hs ib => by
  obtain ⟨u2, rfl, k2, rfl⟩ := h2
  obtain ⟨m2, hs, s3⟩ := hs.split
  obtain ⟨m1, s1, s2⟩ := hs.split
  have q1 : Sp text .test _ _ _ v1 := h1 _ _ s1 (ind_left (ind_left ib))
  have q3 : Sp text .test _ _ _ v3 := h3 _ _ s3 (ind_right ib)
  cases h
  exact ex_binary q1 s2.tk q3)

theorem spn104 : StepOK (SpG text) 104 := prod3 rfl (fun t1 t2 t3 v1 v2 v3 v h1 h2 h3 h lo hi hs ib => by
  obtain ⟨u2, rfl, k2, rfl⟩ := h2
  obtain ⟨m2, hs, s3⟩ := hs.split
  obtain ⟨m1, s1, s2⟩ := hs.split
  have q1 : Sp text .test _ _ _ v1 := h1 _ _ s1 (ind_left (ind_left ib))
  have q3 : Sp text .test _ _ _ v3 := h3 _ _ s3 (ind_right ib)
  cases h
  exact ex_binary q1 s2.tk q3)

theorem spn105 : StepOK (SpG text) 105 := prod3 rfl (fun t1 t2 t3 v1 v2 v3 v h1 h2 h3 h lo hi hs ib => by
  obtain ⟨u2, rfl, k2, rfl⟩ := h2
  obtain ⟨m2, hs, s3⟩ := hs.split
  obtain ⟨m1, s1, s2⟩ := hs.split
  have q1 : Sp text .test _ _ _ v1 := h1 _ _ s1 (ind_left (ind_left ib))
  have q3 : Sp text .test _ _ _ v3 := h3 _ _ s3 (ind_right ib)
  cases h
  exact ex_binary q1 s2.tk q3)

theorem spn106 : StepOK (SpG text) 106 := prod3 rfl (fun t1 t2 t3 v1 v2 v3 v h1 h2 h3 h lo hi hs ib => by
  obtain ⟨u2, rfl, k2, rfl⟩ := h2
  obtain ⟨m2, hs, s3⟩ := hs.split
  obtain ⟨m1, s1, s2⟩ := hs.split
  have q1 : Sp text .test _ _ _ v1 := h1 _ _ s1 (ind_left (ind_left ib))
  have q3 : Sp text .test _ _ _ v3 := h3 _ _ s3 (ind_right ib)
  cases h
  exact ex_binary q1 s2.tk q3)

theorem spn107 : StepOK (SpG text) 107 := prod4 rfl (fun t1 t2 t3 t4 v1 v2 v3 v4 v h1 h2 h3 h4 h lo hi hs ib => by
  obtain ⟨u2, rfl, k2, rfl⟩ := h2
  obtain ⟨u3, rfl, k3, rfl⟩ := h3
  obtain ⟨m3, hs, s4⟩ := hs.split
  obtain ⟨m2, hs, s3⟩ := hs.split
  obtain ⟨m1, s1, s2⟩ := hs.split
  have q1 : Sp text .test _ _ _ v1 := h1 _ _ s1 (ind_left (ind_left (ind_left ib)))
  have q4 : Sp text .test _ _ _ v4 := h4 _ _ s4 (ind_right ib)
  have f2 := s2.fix b!"not" k2 (by decide) (by decide)
  cases h
  exact ex_notIn q1 f2 s3.le q4)

theorem spn108 : StepOK (SpG text) 108 := prod3 rfl (fun t1 t2 t3 v1 v2 v3 v h1 h2 h3 h lo hi hs ib => by
  obtain ⟨u2, rfl, k2, rfl⟩ := h2
  obtain ⟨m2, hs, s3⟩ := hs.split
  obtain ⟨m1, s1, s2⟩ := hs.split
  have q1 : Sp text .test _ _ _ v1 := h1 _ _ s1 (ind_left (ind_left ib))
  have q3 : Sp text .test _ _ _ v3 := h3 _ _ s3 (ind_right ib)
  cases h
  exact ex_binary q1 s2.tk q3)

theorem spn109 : StepOK (SpG text) 109 := prod3 rfl (fun t1 t2 t3 v1 v2 v3 v h1 h2 h3 h lo hi hs ib => by
  obtain ⟨u2, rfl, k2, rfl⟩ := h2
  obtain ⟨m2, hs, s3⟩ := hs.split
  obtain ⟨m1, s1, s2⟩ := hs.split
  have q1 : Sp text .test _ _ _ v1 := h1 _ _ s1 (ind_left (ind_left ib))
  have q3 : Sp text .test _ _ _ v3 := h3 _ _ s3 (ind_right ib)
  cases h
  exact ex_binary q1 s2.tk q3)

theorem spn110 : StepOK (SpG text) 110 := prod3 rfl (fun t1 t2 t3 v1 v2 v3 v h1 h2 h3 h lo hi hs ib => by
  obtain ⟨u2, rfl, k2, rfl⟩ := h2
  obtain ⟨m2, hs, s3⟩ := hs.split
  obtain ⟨m1, s1, s2⟩ := hs.split
  have q1 : Sp text .test _ _ _ v1 := h1 _ _ s1 (ind_left (ind_left ib))
  have q3 : Sp text .test _ _ _ v3 := h3 _ _ s3 (ind_right ib)
  cases h
  exact ex_binary q1 s2.tk q3)

theorem spn111 : StepOK (SpG text) 111 := prod3 rfl (fun t1 t2 t3 v1 v2 v3 v h1 h2 h3 h lo hi hs ib => by
  obtain ⟨u2, rfl, k2, rfl⟩ := h2
  obtain ⟨m2, hs, s3⟩ := hs.split
  obtain ⟨m1, s1, s2⟩ := hs.split
  have q1 : Sp text .test _ _ _ v1 := h1 _ _ s1 (ind_left (ind_left ib))
  have q3 : Sp text .test _ _ _ v3 := h3 _ _ s3 (ind_right ib)
  cases h
  exact ex_binary q1 s2.tk q3)

theorem spn112 : StepOK (SpG text) 112 := prod3 rfl (fun t1 t2 t3 v1 v2 v3 v h1 h2 h3 h lo hi hs ib => by
  obtain ⟨u2, rfl, k2, rfl⟩ := h2
  obtain ⟨m2, hs, s3⟩ := hs.split
  obtain ⟨m1, s1, s2⟩ := hs.split
  have q1 : Sp text .test _ _ _ v1 := h1 _ _ s1 (ind_left (ind_left ib))
  have q3 : Sp text .test _ _ _ v3 := h3 _ _ s3 (ind_right ib)
  cases h
  exact ex_binary q1 s2.tk q3)

theorem spn113 : StepOK (SpG text) 113 := prod3 rfl (fun t1 t2 t3 v1 v2 v3 v h1 h2 h3 h lo hi hs ib => by
  obtain ⟨u2, rfl, k2, rfl⟩ := h2
  obtain ⟨m2, hs, s3⟩ := hs.split
  obtain ⟨m1, s1, s2⟩ := hs.split
  have q1 : Sp text .test _ _ _ v1 := h1 _ _ s1 (ind_left (ind_left ib))
  have q3 : Sp text .test _ _ _ v3 := h3 _ _ s3 (ind_right ib)
  cases h
  exact ex_binary q1 s2.tk q3)

theorem spn114 : StepOK (SpG text) 114 := prod3 rfl (fun t1 t2 t3 v1 v2 v3 v h1 h2 h3 h lo hi hs ib => by
  obtain ⟨u2, rfl, k2, rfl⟩ := h2
  obtain ⟨m2, hs, s3⟩ := hs.split
  obtain ⟨m1, s1, s2⟩ := hs.split
  have q1 : Sp text .test _ _ _ v1 := h1 _ _ s1 (ind_left (ind_left ib))
  have q3 : Sp text .test _ _ _ v3 := h3 _ _ s3 (ind_right ib)
  cases h
  exact ex_binary q1 s2.tk q3)

theorem spn115 : StepOK (SpG text) 115 := prod3 rfl (fun t1 t2 t3 v1 v2 v3 v h1 h2 h3 h lo hi hs ib => by
  obtain ⟨u2, rfl, k2, rfl⟩ := h2
  obtain ⟨m2, hs, s3⟩ := hs.split
  obtain ⟨m1, s1, s2⟩ := hs.split
  have q1 : Sp text .test _ _ _ v1 := h1 _ _ s1 (ind_left (ind_left ib))
  have q3 : Sp text .test _ _ _ v3 := h3 _ _ s3 (ind_right ib)
  have f2 := s2.fix b!"is" k2 (by decide) (by decide)
  rw [sem116] at h
  cases h
  exact ex_is q1 f2 (tok_fixed s2.one.2.1.text k2 (by decide) (by decide)) q3)

theorem spn116 : StepOK (SpG text) 116 := prod5 rfl (fun t1 t2 t3 t4 t5 v1 v2 v3 v4 v5 v h1 h2 h3 h4 h5 h lo hi hs ib => by
  obtain ⟨u2, rfl, k2, rfl⟩ := h2
  obtain ⟨u4, rfl, k4, rfl⟩ := h4
  obtain ⟨m4, hs, s5⟩ := hs.split
  obtain ⟨m3, hs, s4⟩ := hs.split
  obtain ⟨m2, hs, s3⟩ := hs.split
  obtain ⟨m1, s1, s2⟩ := hs.split
  have q1 : Sp text .test _ _ _ v1 := h1 _ _ s1 (ind_left (ind_left (ind_left (ind_left ib))))
  have q3 : Sp text .test _ _ _ v3 := h3 _ _ s3 (ind_right (ind_left (ind_left ib)))
  have q5 : Sp text .test _ _ _ v5 := h5 _ _ s5 (ind_right ib)
  have f2 := s2.fix b!"if" k2 (by decide) (by decide)
  have f4 := s4.fix b!"else" k4 (by decide) (by decide)
  cases h
  exact ex_cond q1 f2 q3 f4 q5)

theorem spn117 : StepOK (SpG text) 117 := prod1 rfl (fun t1 v1 v h1 h lo hi hs ib => by
  have s1 := hs
  have q1 : Sp text .test _ _ _ v1 := h1 _ _ s1 ib
  cases h
  exact Exs.one q1)

theorem spn118 : StepOK (SpG text) 118 := prod3 rfl (fun t1 t2 t3 v1 v2 v3 v h1 h2 h3 h lo hi hs ib => by
  obtain ⟨m2, hs, s3⟩ := hs.split
  obtain ⟨m1, s1, s2⟩ := hs.split
  have q1 : Sp text .tests _ _ _ v1 := h1 _ _ s1 (ind_left (ind_left ib))
  have q3 : Sp text .test _ _ _ v3 := h3 _ _ s3 (ind_right ib)
  cases h
  exact q1.snoc (q3.mono s2.le (Nat.le_refl _)))

theorem spn119 : StepOK (SpG text) 119 := prod0 rfl (fun v h lo hi hs ib => by
  cases h
  exact (ExO.none hs.le : ExO text lo .nil hi))

theorem spn120 : StepOK (SpG text) 120 := prod1 rfl (fun t1 v1 v h1 h lo hi hs ib => by
  have s1 := hs
  have q1 : Sp text .test _ _ _ v1 := h1 _ _ s1 ib
  cases h
  exact ExO.some q1)

theorem spn121 : StepOK (SpG text) 121 := prod0 rfl (fun v h lo hi hs ib => by
  cases h
  exact (Exs.nil hs.le : Exs text lo [] hi))

theorem spn122 : StepOK (SpG text) 122 := prod2 rfl (fun t1 t2 v1 v2 v h1 h2 h lo hi hs ib => by
  obtain ⟨m1, s1, s2⟩ := hs.split
  have q1 : Sp text .tests _ _ _ v1 := h1 _ _ s1 (ind_left ib)
  cases h
  exact q1.mono (Nat.le_refl _) s2.le)

theorem spn123 : StepOK (SpG text) 123 := prod0 rfl (fun v h lo hi hs ib => by
  cases h
  exact trivial)

theorem spn124 : StepOK (SpG text) 124 := prod1 rfl (fun t1 v1 v h1 h lo hi hs ib => by
  obtain ⟨u1, rfl, k1, rfl⟩ := h1
  have s1 := hs
  cases h
  exact trivial)

theorem spn125 : StepOK (SpG text) 125 := prod1 rfl (fun t1 v1 v h1 h lo hi hs ib => by
  obtain ⟨u1, rfl, k1, rfl⟩ := h1
  have s1 := hs
  cases h
  exact trivial)

theorem spn126 : StepOK (SpG text) 126 := prod2 rfl (fun t1 t2 v1 v2 v h1 h2 h lo hi hs ib => by
  obtain ⟨u2, rfl, k2, rfl⟩ := h2
  obtain ⟨m1, s1, s2⟩ := hs.split
  cases h
  exact trivial)

theorem spn127 : StepOK (SpG text) 127 := prod0 rfl (fun v h lo hi hs ib => by
  cases h
  exact trivial)

theorem spn128 : StepOK (SpG text) 128 := prod1 rfl (fun t1 v1 v h1 h lo hi hs ib => by
  have s1 := hs
  cases h
  exact trivial)

theorem spn129 : StepOK (SpG text) 129 := prod3 rfl (fun t1 t2 t3 v1 v2 v3 v h1 h2 h3 h lo hi hs ib => by
  obtain ⟨u2, rfl, k2, rfl⟩ := h2
  obtain ⟨m2, hs, s3⟩ := hs.split
  obtain ⟨m1, s1, s2⟩ := hs.split
  have q1 : Sp text .test _ _ _ v1 := h1 _ _ s1 (ind_left (ind_left ib))
  have q3 : Sp text .test _ _ _ v3 := h3 _ _ s3 (ind_right ib)
  have f2 := s2.fix b!":" k2 (by decide) (by decide)
  cases h
  exact ex_keyValue q1 f2 q3)

theorem spn130 : StepOK (SpG text) 130 := prod1 rfl (fun t1 v1 v h1 h lo hi hs ib => by
  have s1 := hs
  have q1 : Sp text .keyvalue _ _ _ v1 := h1 _ _ s1 ib
  cases h
  exact Exs.one q1)

theorem spn131 : StepOK (SpG text) 131 := prod3 rfl (fun t1 t2 t3 v1 v2 v3 v h1 h2 h3 h lo hi hs ib => by
  obtain ⟨m2, hs, s3⟩ := hs.split
  obtain ⟨m1, s1, s2⟩ := hs.split
  have q1 : Sp text .keyvaluesNoComma _ _ _ v1 := h1 _ _ s1 (ind_left (ind_left ib))
  have q3 : Sp text .keyvalue _ _ _ v3 := h3 _ _ s3 (ind_right ib)
  cases h
  exact q1.snoc (q3.mono s2.le (Nat.le_refl _)))

theorem spn132 : StepOK (SpG text) 132 := prod0 rfl (fun v h lo hi hs ib => by
  cases h
  exact (Exs.nil hs.le : Exs text lo [] hi))

theorem spn133 : StepOK (SpG text) 133 := prod1 rfl (fun t1 v1 v h1 h lo hi hs ib => by
  have s1 := hs
  have q1 : Sp text .keyvaluesNoComma _ _ _ v1 := h1 _ _ s1 ib
  cases h
  exact q1)

theorem spn134 : StepOK (SpG text) 134 := prod2 rfl (fun t1 t2 v1 v2 v h1 h2 h lo hi hs ib => by
  obtain ⟨m1, s1, s2⟩ := hs.split
  have q1 : Sp text .keyvaluesNoComma _ _ _ v1 := h1 _ _ s1 (ind_left ib)
  cases h
  exact q1.mono (Nat.le_refl _) s2.le)

theorem spn135 : StepOK (SpG text) 135 := prod1 rfl (fun t1 v1 v h1 h lo hi hs ib => by
  have s1 := hs
  have q1 : Sp text .primaryExpr _ _ _ v1 := h1 _ _ s1 ib
  cases h
  exact q1)

theorem spn136 : StepOK (SpG text) 136 := prod3 rfl (fun t1 t2 t3 v1 v2 v3 v h1 h2 h3 h lo hi hs ib => by
  obtain ⟨u2, rfl, k2, rfl⟩ := h2
  obtain ⟨m2, hs, s3⟩ := hs.split
  obtain ⟨m1, s1, s2⟩ := hs.split
  have q1 : Sp text .loopVars _ _ _ v1 := h1 _ _ s1 (ind_left (ind_left ib))
  have q3 : Sp text .primaryExpr _ _ _ v3 := h3 _ _ s3 (ind_right ib)
  cases h
  exact ex_tupleAppend q1 s2.le q3)

theorem spn137 : StepOK (SpG text) 137 := prod1 rfl (fun t1 v1 v h1 h lo hi hs ib => by
  obtain ⟨u1, rfl, k1, rfl⟩ := h1
  have s1 := hs
  cases h
  exact ⟨_, rfl, ex_string s1.tk⟩)

theorem spn138 : StepOK (SpG text) 138 := prod1 rfl (fun t1 v1 v h1 h lo hi hs ib => by
  obtain ⟨u1, rfl, k1, rfl⟩ := h1
  have s1 := hs
  cases h
  exact ⟨_, rfl, ex_ident s1.tk⟩)

theorem spn139 : StepOK (SpG text) 139 := prod3 rfl (fun t1 t2 t3 v1 v2 v3 v h1 h2 h3 h lo hi hs ib => by
  obtain ⟨u1, rfl, k1, rfl⟩ := h1
  obtain ⟨u2, rfl, k2, rfl⟩ := h2
  obtain ⟨u3, rfl, k3, rfl⟩ := h3
  obtain ⟨m2, hs, s3⟩ := hs.split
  obtain ⟨m1, s1, s2⟩ := hs.split
  have f2 := s2.fix b!"." k2 (by decide) (by decide)
  cases h
  exact ex_literal (a := u1.tok) (b := b!"." ++ u3.tok) s1.tk.at_ (List.append_assoc ..) (tok_int s1.one.2.1.text k1) s1.tk.lo (by have := s1.tk.hi; have := f2.hi; have := f2.lo; have := s3.tk.hi; have := s3.tk.lo; simp [Val.ofTok] at *; omega))

theorem spn140 : StepOK (SpG text) 140 := prod2 rfl (fun t1 t2 v1 v2 v h1 h2 h lo hi hs ib => by
  obtain ⟨u1, rfl, k1, rfl⟩ := h1
  obtain ⟨u2, rfl, k2, rfl⟩ := h2
  obtain ⟨m1, s1, s2⟩ := hs.split
  have f2 := s2.fix b!"." k2 (by decide) (by decide)
  cases h
  exact ex_literal (a := u1.tok) (b := b!".") s1.tk.at_ rfl (tok_int s1.one.2.1.text k1) s1.tk.lo (by have := s1.tk.hi; have := f2.hi; have := f2.lo; simp [Val.ofTok] at *; omega))

theorem spn141 : StepOK (SpG text) 141 := prod2 rfl (fun t1 t2 v1 v2 v h1 h2 h lo hi hs ib => by
  obtain ⟨u1, rfl, k1, rfl⟩ := h1
  obtain ⟨u2, rfl, k2, rfl⟩ := h2
  obtain ⟨m1, s1, s2⟩ := hs.split
  have f1 := s1.fix b!"." k1 (by decide) (by decide)
  cases h
  exact ex_literal (a := b!".") (b := u2.tok) f1.at_ rfl (by decide) s1.tk.lo (by have := f1.hi; have := s2.tk.hi; have := s2.tk.lo; simp [Val.ofTok] at *; omega))

theorem spn142 : StepOK (SpG text) 142 := prod1 rfl (fun t1 v1 v h1 h lo hi hs ib => by
  obtain ⟨u1, rfl, k1, rfl⟩ := h1
  have s1 := hs
  cases h
  exact ex_literal (a := u1.tok) (b := []) s1.tk.at_ (List.append_nil _).symm (tok_int s1.one.2.1.text k1) s1.tk.lo s1.tk.hi)

theorem spn143 : StepOK (SpG text) 143 := prod4 rfl (fun t1 t2 t3 t4 v1 v2 v3 v4 v h1 h2 h3 h4 h lo hi hs ib => by
  obtain ⟨u1, rfl, k1, rfl⟩ := h1
  obtain ⟨u3, rfl, k3, rfl⟩ := h3
  obtain ⟨m3, hs, s4⟩ := hs.split
  obtain ⟨m2, hs, s3⟩ := hs.split
  obtain ⟨m1, s1, s2⟩ := hs.split
  have q2 : Sp text .loopVars _ _ _ v2 := h2 _ _ s2 (ind_right (ind_left (ind_left ib)))
  have q4 : Sp text .test _ _ _ v4 := h4 _ _ s4 (ind_right ib)
  have f1 := s1.fix b!"for" k1 (by decide) (by decide)
  have f3 := s3.fix b!"in" k3 (by decide) (by decide)
  cases h
  exact ex_forClause f1 q2 f3 q4)

theorem spn144 : StepOK (SpG text) 144 := prod1 rfl (fun t1 v1 v h1 h lo hi hs ib => by
  have s1 := hs
  have q1 : Sp text .forClause _ _ _ v1 := h1 _ _ s1 ib
  cases h
  exact Exs.one q1)

theorem spn145 : StepOK (SpG text) 145 := prod3 rfl (fun t1 t2 t3 v1 v2 v3 v h1 h2 h3 h lo hi hs ib => by
  obtain ⟨u2, rfl, k2, rfl⟩ := h2
  obtain ⟨m2, hs, s3⟩ := hs.split
  obtain ⟨m1, s1, s2⟩ := hs.split
  have q1 : Sp text .forClauseWithIfClausesOpt _ _ _ v1 := h1 _ _ s1 (ind_left (ind_left ib))
  have q3 : Sp text .test _ _ _ v3 := h3 _ _ s3 (ind_right ib)
  have f2 := s2.fix b!"if" k2 (by decide) (by decide)
  cases h
  exact q1.snoc (ex_ifClause f2 q3))

theorem spn146 : StepOK (SpG text) 146 := prod1 rfl (fun t1 v1 v h1 h lo hi hs ib => by
  have s1 := hs
  have q1 : Sp text .forClauseWithIfClausesOpt _ _ _ v1 := h1 _ _ s1 ib
  cases h
  exact q1)

theorem spn147 : StepOK (SpG text) 147 := prod2 rfl (fun t1 t2 v1 v2 v h1 h2 h lo hi hs ib => by
  obtain ⟨m1, s1, s2⟩ := hs.split
  have q1 : Sp text .forClausesWithIfClausesOpt _ _ _ v1 := h1 _ _ s1 (ind_left ib)
  have q2 : Sp text .forClauseWithIfClausesOpt _ _ _ v2 := h2 _ _ s2 (ind_right ib)
  cases h
  exact q1.append q2)

theorem spn_all : ∀ r, r < 148 → StepOK (SpG text) r
  | 0, _ => spn0
  | 1, _ => spn1
  | 2, _ => spn2
  | 3, _ => spn3
  | 4, _ => spn4
  | 5, _ => spn5
  | 6, _ => spn6
  | 7, _ => spn7
  | 8, _ => spn8
  | 9, _ => spn9
  | 10, _ => spn10
  | 11, _ => spn11
  | 12, _ => spn12
  | 13, _ => spn13
  | 14, _ => spn14
  | 15, _ => spn15
  | 16, _ => spn16
  | 17, _ => spn17
  | 18, _ => spn18
  | 19, _ => spn19
  | 20, _ => spn20
  | 21, _ => spn21
  | 22, _ => spn22
  | 23, _ => spn23
  | 24, _ => spn24
  | 25, _ => spn25
  | 26, _ => spn26
  | 27, _ => spn27
  | 28, _ => spn28
  | 29, _ => spn29
  | 30, _ => spn30
  | 31, _ => spn31
  | 32, _ => spn32
  | 33, _ => spn33
  | 34, _ => spn34
  | 35, _ => spn35
  | 36, _ => spn36
  | 37, _ => spn37
  | 38, _ => spn38
  | 39, _ => spn39
  | 40, _ => spn40
  | 41, _ => spn41
  | 42, _ => spn42
  | 43, _ => spn43
  | 44, _ => spn44
  | 45, _ => spn45
  | 46, _ => spn46
  | 47, _ => spn47
  | 48, _ => spn48
  | 49, _ => spn49
  | 50, _ => spn50
  | 51, _ => spn51
  | 52, _ => spn52
  | 53, _ => spn53
  | 54, _ => spn54
  | 55, _ => spn55
  | 56, _ => spn56
  | 57, _ => spn57
  | 58, _ => spn58
  | 59, _ => spn59
  | 60, _ => spn60
  | 61, _ => spn61
  | 62, _ => spn62
  | 63, _ => spn63
  | 64, _ => spn64
  | 65, _ => spn65
  | 66, _ => spn66
  | 67, _ => spn67
  | 68, _ => spn68
  | 69, _ => spn69
  | 70, _ => spn70
  | 71, _ => spn71
  | 72, _ => spn72
  | 73, _ => spn73
  | 74, _ => spn74
  | 75, _ => spn75
  | 76, _ => spn76
  | 77, _ => spn77
  | 78, _ => spn78
  | 79, _ => spn79
  | 80, _ => spn80
  | 81, _ => spn81
  | 82, _ => spn82
  | 83, _ => spn83
  | 84, _ => spn84
  | 85, _ => spn85
  | 86, _ => spn86
  | 87, _ => spn87
  | 88, _ => spn88
  | 89, _ => spn89
  | 90, _ => spn90
  | 91, _ => spn91
  | 92, _ => spn92
  | 93, _ => spn93
  | 94, _ => spn94
  | 95, _ => spn95
  | 96, _ => spn96
  | 97, _ => spn97
  | 98, _ => spn98
  | 99, _ => spn99
  | 100, _ => spn100
  | 101, _ => spn101
  | 102, _ => spn102
  | 103, _ => spn103
  | 104, _ => spn104
  | 105, _ => spn105
  | 106, _ => spn106
  | 107, _ => spn107
  | 108, _ => spn108
  | 109, _ => spn109
  | 110, _ => spn110
  | 111, _ => spn111
  | 112, _ => spn112
  | 113, _ => spn113
  | 114, _ => spn114
  | 115, _ => spn115
  | 116, _ => spn116
  | 117, _ => spn117
  | 118, _ => spn118
  | 119, _ => spn119
  | 120, _ => spn120
  | 121, _ => spn121
  | 122, _ => spn122
  | 123, _ => spn123
  | 124, _ => spn124
  | 125, _ => spn125
  | 126, _ => spn126
  | 127, _ => spn127
  | 128, _ => spn128
  | 129, _ => spn129
  | 130, _ => spn130
  | 131, _ => spn131
  | 132, _ => spn132
  | 133, _ => spn133
  | 134, _ => spn134
  | 135, _ => spn135
  | 136, _ => spn136
  | 137, _ => spn137
  | 138, _ => spn138
  | 139, _ => spn139
  | 140, _ => spn140
  | 141, _ => spn141
  | 142, _ => spn142
  | 143, _ => spn143
  | 144, _ => spn144
  | 145, _ => spn145
  | 146, _ => spn146
  | 147, _ => spn147
  | n + 148, h => absurd h (by omega)

end Verif.Props.Spans
