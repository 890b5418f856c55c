import Verif.Proofs.PrintS
import Verif.Proofs.Again.PrintE5
/-
Printed statements are read back as they were printed.
-/
namespace Verif.Again
open Verif Verif.Syntax Verif.Lexer Verif.Print Verif.Grammar Verif.Parser Verif.Round

theorem lx_nc {b ln s c as} (h : Lx b ln s c as) : NC as := by
  induction h with
  | nil => intro a ha; cases ha
  | space => intro a ha; cases ha
  | newline => intro a ha; cases ha
  | cont => intro a ha; cases ha
  | tok b ln t c a ht hd =>
    intro x hx
    rw [List.mem_singleton.1 hx]
    obtain ⟨e1, y, r0, rfl, hs⟩ := ht
    exact (Props.Lexer.scanTok_spec y _ _ (hs []) {}).2.2.2.2.2.1
  | group b ln o cl s c as ho hcl hs ih =>
    intro x hx
    rcases List.mem_cons.1 hx with rfl | hx
    · show o.toNat ≠ K.comment
      rcases ho with rfl | rfl | rfl <;> decide
    · rcases List.mem_append.1 hx with hx | hx
      · exact ih x hx
      · rw [List.mem_singleton.1 hx]
        show cl.toNat ≠ K.comment
        rcases hcl with rfl | rfl | rfl <;> decide
  | app _ _ _ _ _ _ _ _ _ ih1 ih2 => exact ih1.app ih2

theorem T.nc {b ln s as} (h : T b ln s as) : NC as := lx_nc (h 32 follow32)

theorem linedN {st st' : St} {P : Bytes → Prop} (h : AddsN st st' P) : AddsN st st' (fun s => P s ∧ line st' = line st + nl s) :=
  ⟨h.1, fun hb => by
    obtain ⟨a, s, b, c⟩ := h.2 hb
    refine ⟨a, s, b, c, ?_⟩
    unfold line
    rw [b, nl_append, nl_reverse]; omega⟩

/-- the text, which starts on line `ln`, reads as the statements `its` at indentation `m` -/
def StmtT (ft : FileType) (pr : Pr) (m ln : Nat) (its : List It) (t : Bytes) : Prop :=
  StartOK t ∧ EndOK t ∧ ∀ n, ∃ as, LS m ln t (n + 1) as ∧ Ext ft pr its as

/-- what the printer does with statements -/
def PrS (ft : FileType) (pr : Pr) : Prop :=
  ∀ s st, OkStmt s → Fo s → tupleTight s = true → Clean st → st.depth = 0 → AddsN st (pr s 0 st) (StmtT ft pr st.margin (line st) [(s, st)])

theorem OkStmt.plain {s : Expr} (h : OkStmt s) : Plain s := ⟨h.comments, h.noBlock, h.isNil⟩

section
variable {ft : FileType} {pr : Pr} (hS : PrS ft pr) (hk : ∀ e o st, Keep st (pr e o st))
include hS hk

theorem stmtLoop_spec : ∀ (l : List Expr) (st : St), l ≠ [] → (∀ s ∈ l, OkStmt s) → (∀ s ∈ l, Fo s) → (∀ s ∈ l, tupleTight s = true) → Clean st → st.depth = 0 →
    AddsN st (stmtLoop ft pr l st) (StmtT ft pr st.margin (line st) (itemsS ft pr l st)) ∧ (stmtLoop ft pr l st).needsNL = true := by
  intro l
  induction l with
  | nil => intro st h; exact absurd rfl h
  | cons s l ih =>
    intro st _ hok hfo htt hc hd
    have h1 := hS s st (hok s (by simp)) (hfo s (by simp)) (htt s (by simp)) hc hd
    rw [stmtLoop_cons (hok s (by simp)).comments (hok s (by simp)).noBlock]
    cases l with
    | nil => exact ⟨h1, rfl⟩
    | cons s2 l =>
      dsimp only
      have hm : (softNewline (pr s 0 st)).margin = st.margin := (hk s 0 st).2
      have hd1 : (softNewline (pr s 0 st)).depth = 0 := ((hk s 0 st).1).trans hd
      have n1 := AddsN.newline h1.soft (fun t q => q.2.1)
      rw [hm] at n1
      have k1 := keep_newline (softNewline (pr s 0 st))
      have n2 := n1.newline2
      rw [k1.2, hm] at n2
      have k2 := (keep_newline (softNewline (pr s 0 st))).trans (keep_newline (newline (softNewline (pr s 0 st))))
      have fin : ∀ (j : Nat) (st2 : St), st2 = nextS ft pr s st (s2 :: l) →
          Adds st st2 (fun t => ∃ t0, t = t0 ++ (List.replicate (j + 1) 10 ++ spaces st.margin) ∧ StmtT ft pr st.margin (line st) [(s, st)] t0) → st2.depth = 0 →
          st2.margin = st.margin → AddsN st (stmtLoop ft pr (s2 :: l) st2) (StmtT ft pr st.margin (line st) (itemsS ft pr (s :: s2 :: l) st)) ∧ (stmtLoop ft pr (s2 :: l) st2).needsNL = true := by
        intro j st2 e2 ha hd2 hm2
        have hr := fun hc2 => ih st2 (by simp) (fun x hx => hok x (by simp [hx])) (fun x hx => hfo x (by simp [hx])) (fun x hx => htt x (by simp [hx])) hc2 hd2
        refine ⟨(lined ha).transN (fun hc2 => (hr hc2).1) ?_, (hr ha.1).2⟩
        rintro _ t2 ⟨⟨t0, rfl, a1, a2, a3⟩, hln⟩ ⟨b1, b2, b3⟩
        rw [hm2] at b3
        refine ⟨(a1.app).app, b2.app, fun n => ?_⟩
        obtain ⟨as1, l1, x1⟩ := a3 j
        obtain ⟨as2, l2, x2⟩ := b3 n
        rw [nl_append, nl_append, nl_replicate, nl_spaces, Nat.add_zero] at hln
        rw [hln] at l2
        have hi : itemsS ft pr (s :: s2 :: l) st = [(s, st)] ++ itemsS ft pr (s2 :: l) st2 := by rw [e2]; rfl
        rw [hi]
        refine ⟨as1 ++ as2, ?_, x1.app x2⟩
        have := ls_seq l1 b1 l2
        simpa using this
      by_cases hcp : compactStmt ft (newline (softNewline (pr s 0 st))).level s s2 = true
      · have e : nextS ft pr s st (s2 :: l) = newline (softNewline (pr s 0 st)) := if_pos hcp
        rw [e]
        exact fin 0 _ e.symm n1 (k1.1.trans hd1) (k1.2.trans hm)
      · have e : nextS ft pr s st (s2 :: l) = newline (newline (softNewline (pr s 0 st))) := if_neg hcp
        rw [e]
        exact fin 1 _ e.symm n2 (k2.1.trans hd1) (k2.2.trans hm)

theorem statements_spec {l : List Expr} {st : St} (hl : l ≠ []) (hok : ∀ s ∈ l, OkStmt s) (hfo : ∀ s ∈ l, Fo s) (htt : ∀ s ∈ l, tupleTight s = true) (hc : Clean st) (hd : st.depth = 0) :
    AddsN st (statements ft pr l st) (StmtT ft pr st.margin (line st) (itemsS ft pr l st)) ∧ (statements ft pr l st).needsNL = true := by
  unfold statements
  rw [List.filter_eq_self.2 (fun x hx => by simp [(hok x hx).isNil])]
  exact stmtLoop_spec hS hk l st hl hok hfo htt hc hd

/-- a header and an indented block -/
theorem nested_spec {l : List Expr} {st0 st : St} {P : List LTok → Prop} (h : Adds st0 st (YP false (line st0) P)) (hd : st.depth = 0) (hl : l ≠ []) (hok : ∀ s ∈ l, OkStmt s)
    (hfo : ∀ s ∈ l, Fo s) (htt : ∀ s ∈ l, tupleTight s = true) :
    AddsN st0 (nestedStatements ft pr l st) (fun t => StartOK t ∧ EndOK t ∧ ∀ n, ∃ ah as, LS st.margin (line st0) t (n + 1) (ah ++ (NL :: IND :: (as ++ [UNIND]))) ∧ NC ah ∧ P ah ∧
        Ext ft pr (itemsS ft pr l (nestOpen st)) as) ∧
      (nestedStatements ft pr l st).needsNL = true := by
  unfold nestedStatements
  dsimp only
  have n0 : AddsN st0 { st with margin := st.margin + nestedIndentation, level := st.level + 1 } (YP false (line st0) P) := h.toN
  have n1 := n0.newline (fun t q => q.2.1)
  have k1 := keep_newline { st with margin := st.margin + nestedIndentation, level := st.level + 1 }
  change Adds st0 (nestOpen st) _ at n1
  change Keep _ (nestOpen st) at k1
  have hd1 : (nestOpen st).depth = 0 := k1.1.trans hd
  have hm1 : (nestOpen st).margin = st.margin + 4 := k1.2
  have s1 := fun hc => statements_spec hS hk (st := nestOpen st) hl hok hfo htt hc hd1
  rw [hm1] at s1
  change AddsN st0 (({ statements ft pr l (nestOpen st) with margin := st.margin, level := st.level } : St)) _ ∧ _
  refine ⟨?_, (s1 n1.1).2⟩
  have h2 := (lined n1).transN (fun hc => (s1 hc).1) (R := fun t => StartOK t ∧ EndOK t ∧ ∀ n, ∃ ah as, LS st.margin (line st0) t (n + 1) (ah ++ (NL :: IND :: (as ++ [UNIND]))) ∧ NC ah ∧ P ah ∧
      Ext ft pr (itemsS ft pr l (nestOpen st)) as) (by
    rintro _ t2 ⟨⟨t0, rfl, a1, a2, ah, a3, a4⟩, hln⟩ ⟨b1, b2, b3⟩
    refine ⟨(a1.app).app, b2.app, fun n => ?_⟩
    obtain ⟨as, l2, e2⟩ := b3 n
    refine ⟨ah, as, ?_, a3.nc, a4, e2⟩
    rw [nl_append, nl_cons, nl_spaces, if_pos rfl] at hln
    rw [hln] at l2
    have := ls_block (m := st.margin) (ln := line st0) a1 a3 b1 (by simpa using l2)
    rw [List.append_assoc]
    exact this)
  exact h2

end

end Verif.Again
