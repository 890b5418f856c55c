import Verif.Proofs.PrintE
import Verif.Proofs.GenS
/-
Printed statements can be read back.
-/
namespace Verif.Round
open Verif Verif.Syntax Verif.Lexer Verif.Print Verif.Parser Verif.Grammar Verif.Props.Grammar

/-! ## Appending, with a line end pending -/

/-- like `Adds`, but a line end may be pending -/
def AddsN (st st' : St) (P : Bytes → Prop) : Prop :=
  st'.comment = [] ∧ (st'.bad = false → st.bad = false ∧ ∃ s, st'.out = s.reverse ++ st.out ∧ P s)

theorem Adds.toN {st st' P} (h : Adds st st' P) : AddsN st st' P := ⟨h.1.1, h.2⟩

theorem AddsN.mono {st st' P Q} (h : AddsN st st' P) (h' : ∀ s, P s → Q s) : AddsN st st' Q :=
  ⟨h.1, fun hb => by obtain ⟨a, s, b, c⟩ := h.2 hb; exact ⟨a, s, b, h' s c⟩⟩

theorem Adds.transN {st st1 st2 P Q R} (h1 : Adds st st1 P) (h2 : Clean st1 → AddsN st1 st2 Q) (h : ∀ s1 s2, P s1 → Q s2 → R (s1 ++ s2)) : AddsN st st2 R := by
  have h2' := h2 h1.1
  refine ⟨h2'.1, fun hb => ?_⟩
  obtain ⟨b1, s2, e2, q2⟩ := h2'.2 hb
  obtain ⟨b0, s1, e1, q1⟩ := h1.2 b1
  exact ⟨b0, s1 ++ s2, by rw [e2, e1, List.reverse_append, List.append_assoc], h s1 s2 q1 q2⟩

theorem newline_pending {st : St} (h : st.comment = []) : newline st = emit (10 :: spaces st.margin) (trim { st with needsNL := false }) := by
  unfold newline
  dsimp only
  rw [h]
  rfl

theorem trim_end {s out : Bytes} (h : EndOK s) : (s.reverse ++ out).dropWhile (· == 32) = s.reverse ++ out := by
  obtain ⟨r, x, rfl, hx⟩ := h
  rw [List.reverse_append]
  show (x :: (r.reverse ++ out)).dropWhile (· == 32) = _
  rw [List.dropWhile_cons, if_neg (by simpa using hx)]
  rfl

theorem AddsN.newline {st st1 : St} {P : Bytes → Prop} (h1 : AddsN st st1 P) (hend : ∀ s, P s → EndOK s) :
    Adds st (newline st1) (fun s => ∃ s0, s = s0 ++ (10 :: spaces st1.margin) ∧ P s0) := by
  rw [newline_pending h1.1]
  refine ⟨⟨h1.1, rfl⟩, fun hb => ?_⟩
  obtain ⟨b0, s, e, p⟩ := h1.2 hb
  refine ⟨b0, s ++ (10 :: spaces st1.margin), ?_, s, rfl, p⟩
  show (10 :: spaces st1.margin).reverse ++ st1.out.dropWhile (· == 32) = _
  rw [e, trim_end (hend s p), List.reverse_append, List.append_assoc]

theorem trim_spaces (n : Nat) (s : Bytes) : (spaces n ++ 10 :: s).dropWhile (· == 32) = 10 :: s := by
  induction n with
  | zero => rfl
  | succ n ih =>
    show (32 :: (spaces n ++ 10 :: s)).dropWhile (· == 32) = _
    rw [List.dropWhile_cons, if_pos (by rfl), ih]

theorem spaces_reverse (n : Nat) : (spaces n).reverse = spaces n := by unfold spaces; exact List.reverse_replicate

/-- a second line end removes the blanks after the first one -/
theorem Adds.newline2 {st st1 : St} {P : Bytes → Prop} {k : Nat} (h1 : Adds st st1 (fun s => ∃ s0, s = s0 ++ (10 :: spaces k) ∧ P s0)) :
    Adds st (Print.newline st1) (fun s => ∃ s0, s = s0 ++ (10 :: 10 :: spaces st1.margin) ∧ P s0) := by
  rw [newline_pending h1.1.1]
  refine ⟨⟨h1.1.1, rfl⟩, fun hb => ?_⟩
  obtain ⟨b0, s, e, s0, rfl, p⟩ := h1.2 hb
  refine ⟨b0, s0 ++ (10 :: 10 :: spaces st1.margin), ?_, s0, rfl, p⟩
  show (10 :: spaces st1.margin).reverse ++ st1.out.dropWhile (· == 32) = _
  have e2 : (s0 ++ (10 :: spaces k)).reverse ++ st.out = spaces k ++ 10 :: (s0.reverse ++ st.out) := by simp [spaces_reverse]
  rw [e, e2, trim_spaces]
  simp [spaces_reverse]

theorem AddsN.soft {st st1 : St} {P : Bytes → Prop} (h : AddsN st st1 P) : AddsN st (softNewline st1) P := h

/-! ## Tokens of expressions are no comments -/

theorem lx_nc {b s c as} (h : Lx b s c as) : NC as := by
  induction h with
  | nil => intro a ha; cases ha
  | space => intro a ha; cases ha
  | newline => intro a ha; cases ha
  | cont => intro a ha; cases ha
  | tok b t c a ht hd =>
    intro x hx
    rw [List.mem_singleton.1 hx]
    obtain ⟨e1, y, r0, rfl, hs⟩ := ht
    exact (Props.Lexer.scanTok_spec y _ _ (hs []) {}).2.2.2.2.2.1
  | group b o cl s c as ho hcl hs ih =>
    intro x hx
    rcases List.mem_cons.1 hx with rfl | hx
    · rcases ho with rfl | rfl | rfl <;> decide
    · rcases List.mem_append.1 hx with hx | hx
      · exact ih x hx
      · rw [List.mem_singleton.1 hx]
        rcases hcl with rfl | rfl | rfl <;> decide
  | app _ _ _ _ _ _ _ _ ih1 ih2 => exact ih1.app ih2

theorem T.nc {b s as} (h : T b s as) : NC as := lx_nc (h 32 follow32)

/-! ## Statements -/

/-- the text reads as the statements `ss` at indentation `m` -/
def StmtT (m : Nat) (ss : List Expr) (t : Bytes) : Prop := StartOK t ∧ EndOK t ∧ ∀ n, ∃ as, LS m t (n + 1) as ∧ Ext ss as

/-- what the printer does with statements -/
def PrS (pr : Pr) : Prop :=
  ∀ s st, OkStmt s → tupleTight s = true → Clean st → st.depth = 0 → AddsN st (pr s 0 st) (StmtT st.margin [s])

theorem OkExpr.comments {e : Expr} (h : OkExpr e) : e.comments = {} := by
  cases h <;> first | rfl | skip
  rename_i h; exact h.comments

theorem OkStmt.comments {e : Expr} (h : OkStmt e) : e.comments = {} := by
  cases h <;> first | rfl | skip
  rename_i h; exact h.comments

theorem OkStmt.isNil {e : Expr} (h : OkStmt e) : e.isNil = false := by
  cases h <;> first | rfl | skip
  rename_i h; exact h.isNil

theorem OkStmt.noBlock {e : Expr} (h : OkStmt e) : isCommentBlock e = false := by
  cases h <;> first | rfl | skip
  rename_i h
  cases h <;> first | rfl | skip
  rename_i h
  cases h <;> rfl

theorem simple_T {m s t} (h : Y false .smallStmt (SE s) t) : StmtT m [s] t := by
  obtain ⟨h1, h2, as, h3, h4⟩ := h
  exact ⟨h1, h2, fun n => ⟨_, ls_simple h1 h3, ext_simple h4 h3.nc n⟩⟩

section
variable {ft : FileType} {pr : Pr} (hS : PrS pr) (hk : ∀ e o st, Keep st (pr e o st))
include hS hk

theorem stmtLoop_spec : ∀ (l : List Expr) (st : St), l ≠ [] → (∀ s ∈ l, OkStmt s) → (∀ s ∈ l, tupleTight s = true) → Clean st → st.depth = 0 →
    AddsN st (stmtLoop ft pr l st) (StmtT st.margin l) ∧ (stmtLoop ft pr l st).needsNL = true := by
  intro l
  induction l with
  | nil => intro st h; exact absurd rfl h
  | cons s l ih =>
    intro st _ hok htt hc hd
    have h1 := hS s st (hok s (by simp)) (htt s (by simp)) hc hd
    have hcom : s.comments.after = [] := by rw [(hok s (by simp)).comments]
    have hnb : isCommentBlock s = false := (hok s (by simp)).noBlock
    cases l with
    | nil =>
      unfold stmtLoop
      dsimp only
      rw [hcom, hnb]
      exact ⟨h1, rfl⟩
    | cons s2 l =>
      unfold stmtLoop
      dsimp only
      rw [hcom, hnb]
      simp only [Bool.false_eq_true, if_false]
      show AddsN st (stmtLoop ft pr (s2 :: l) (if compactStmt ft (newline (softNewline (pr s 0 st))).level s s2 = true then newline (softNewline (pr s 0 st)) else newline (newline (softNewline (pr s 0 st))))) _ ∧
        (stmtLoop ft pr (s2 :: l) (if compactStmt ft (newline (softNewline (pr s 0 st))).level s s2 = true then newline (softNewline (pr s 0 st)) else newline (newline (softNewline (pr s 0 st))))).needsNL = true
      have hm : (softNewline (pr s 0 st)).margin = st.margin := (hk s 0 st).2
      have hd1 : (softNewline (pr s 0 st)).depth = 0 := ((hk s 0 st).1).trans hd
      have n1 := AddsN.newline h1.soft (fun t q => q.2.1)
      rw [hm] at n1
      have k1 := keep_newline (softNewline (pr s 0 st))
      have n2 := n1.newline2
      rw [k1.2, hm] at n2
      have k2 := (keep_newline (softNewline (pr s 0 st))).trans (keep_newline (newline (softNewline (pr s 0 st))))
      have fin : ∀ (j : Nat) (st2 : St), Adds st st2 (fun t => ∃ t0, t = t0 ++ (List.replicate (j + 1) 10 ++ spaces st.margin) ∧ StmtT st.margin [s] t0) → st2.depth = 0 →
          st2.margin = st.margin → AddsN st (stmtLoop ft pr (s2 :: l) st2) (StmtT st.margin (s :: s2 :: l)) ∧ (stmtLoop ft pr (s2 :: l) st2).needsNL = true := by
        intro j st2 ha hd2 hm2
        have hr := fun hc2 => ih st2 (by simp) (fun x hx => hok x (by simp [hx])) (fun x hx => htt x (by simp [hx])) hc2 hd2
        refine ⟨ha.transN (fun hc2 => (hr hc2).1) ?_, (hr ha.1).2⟩
        rintro _ t2 ⟨t0, rfl, a1, a2, a3⟩ ⟨b1, b2, b3⟩
        rw [hm2] at b3
        refine ⟨(a1.app).app, b2.app, fun n => ?_⟩
        obtain ⟨as1, l1, e1⟩ := a3 j
        obtain ⟨as2, l2, e2⟩ := b3 n
        refine ⟨as1 ++ as2, ?_, e1.app e2⟩
        have := ls_seq l1 b1 l2
        simpa using this
      by_cases hcp : compactStmt ft (newline (softNewline (pr s 0 st))).level s s2 = true
      · have e : (if compactStmt ft (newline (softNewline (pr s 0 st))).level s s2 = true then newline (softNewline (pr s 0 st)) else newline (newline (softNewline (pr s 0 st)))) = newline (softNewline (pr s 0 st)) := if_pos hcp
        rw [e]
        exact fin 0 _ n1 (k1.1.trans hd1) (k1.2.trans hm)
      · have e : (if compactStmt ft (newline (softNewline (pr s 0 st))).level s s2 = true then newline (softNewline (pr s 0 st)) else newline (newline (softNewline (pr s 0 st)))) = newline (newline (softNewline (pr s 0 st))) := if_neg hcp
        rw [e]
        exact fin 1 _ n2 (k2.1.trans hd1) (k2.2.trans hm)

theorem statements_spec {l : List Expr} {st : St} (hl : l ≠ []) (hok : ∀ s ∈ l, OkStmt s) (htt : ∀ s ∈ l, tupleTight s = true) (hc : Clean st) (hd : st.depth = 0) :
    AddsN st (statements ft pr l st) (StmtT st.margin l) ∧ (statements ft pr l st).needsNL = true := by
  unfold statements
  rw [List.filter_eq_self.2 (fun x hx => by simp [(hok x hx).isNil])]
  exact stmtLoop_spec hS hk l st hl hok htt hc hd

/-- a header and an indented block -/
theorem nested_spec {l : List Expr} {st0 st : St} {P : List ATok → Prop} (h : Adds st0 st (YP false P)) (hd : st.depth = 0) (hl : l ≠ []) (hok : ∀ s ∈ l, OkStmt s)
    (htt : ∀ s ∈ l, tupleTight s = true) :
    AddsN st0 (nestedStatements ft pr l st) (fun t => StartOK t ∧ EndOK t ∧ ∀ n, ∃ ah as, LS st.margin t (n + 1) (ah ++ (NL :: IND :: (as ++ [UNIND]))) ∧ NC ah ∧ P ah ∧ Ext l as) ∧
      (nestedStatements ft pr l st).needsNL = true := by
  unfold nestedStatements
  dsimp only
  have n0 : AddsN st0 { st with margin := st.margin + nestedIndentation, level := st.level + 1 } (YP false P) := h.toN
  have n1 := n0.newline (fun t q => q.2.1)
  have k1 := keep_newline { st with margin := st.margin + nestedIndentation, level := st.level + 1 }
  have hd1 : (newline { st with margin := st.margin + nestedIndentation, level := st.level + 1 }).depth = 0 := k1.1.trans hd
  have hm1 : (newline { st with margin := st.margin + nestedIndentation, level := st.level + 1 }).margin = st.margin + 4 := k1.2
  have s1 := fun hc => statements_spec (ft := ft) hS hk (st := newline { st with margin := st.margin + nestedIndentation, level := st.level + 1 }) hl hok htt hc hd1
  rw [hm1] at s1
  refine ⟨?_, (s1 n1.1).2⟩
  have h2 := n1.transN (fun hc => (s1 hc).1) (R := fun t => StartOK t ∧ EndOK t ∧ ∀ n, ∃ ah as, LS st.margin t (n + 1) (ah ++ (NL :: IND :: (as ++ [UNIND]))) ∧ NC ah ∧ P ah ∧ Ext l as) (by
    rintro _ t2 ⟨t0, rfl, a1, a2, ah, a3, a4⟩ ⟨b1, b2, b3⟩
    refine ⟨(a1.app).app, b2.app, fun n => ?_⟩
    obtain ⟨as, l2, e2⟩ := b3 n
    refine ⟨ah, as, ?_, a3.nc, a4, e2⟩
    have := ls_block a1 a3 b1 l2
    rw [List.append_assoc]
    exact this)
  exact h2

end

end Verif.Round
