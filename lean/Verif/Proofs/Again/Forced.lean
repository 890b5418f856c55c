import Verif.Proofs.Again.Force
import Verif.Proofs.Induct
/-
What the parser forces onto one line is simple.
-/
namespace Verif.Again
open Verif Verif.Syntax Verif.Lexer Verif.Grammar Verif.Parser Verif.Props.Grammar

/-- what is forced is simple, everywhere -/
abbrev Sf (e : Expr) : Prop := every simpleForced e = true
abbrev SfL (l : List Expr) : Prop := everyL simpleForced l = true

/-- a value of the parser -/
structure SfV (v : Val) : Prop where
  expr : Sf v.expr
  exprs : SfL v.exprs

theorem sf_nil : Sf .nil := by rfl
theorem sfL_nil : SfL [] := by rfl
theorem sfV_default : SfV {} := ⟨rfl, rfl⟩

theorem sfL_cons {x l} : SfL (x :: l) ↔ Sf x ∧ SfL l := by
  unfold SfL; rw [everyL, Bool.and_eq_true]

theorem sfL_append : ∀ {a b : List Expr}, SfL (a ++ b) ↔ SfL a ∧ SfL b
  | [], b => by simp [SfL, everyL]
  | x :: a, b => by
    have := sfL_append (a := a) (b := b)
    rw [List.cons_append, sfL_cons, sfL_cons, this, and_assoc]

theorem compactLoop_simple : ∀ {l : List Expr} {n m}, compactLoop n l = some m → l.all isSimple = true
  | [], _, _, _ => rfl
  | x :: l, n, m, h => by
    unfold compactLoop at h
    split at h
    · cases h
    · split at h
      · rename_i hx
        simp [hx, compactLoop_simple h]
      · cases h

theorem forceCompact_simple {p q : Pos} {l : List Expr} (h : forceCompact p l q = true) : l.all isSimple = true := by
  unfold forceCompact at h
  split at h
  · cases h
  · split at h
    · cases h
    · rename_i hl
      exact compactLoop_simple hl

theorem forced_ok (p q : Pos) (l : List Expr) : (!forceCompact p l q || l.all isSimple) = true := by
  cases h : forceCompact p l q
  · rfl
  · simpa using forceCompact_simple h

theorem sf_setComments (c : Comments) (x : Expr) : every simpleForced (x.setComments c) = every simpleForced x := by
  cases x <;> rfl
theorem sf_setAfter (c : List Comment) (x : Expr) : every simpleForced (setAfter c x) = every simpleForced x := sf_setComments _ x
theorem sf_setBefore (c : List Comment) (x : Expr) : every simpleForced (setBefore c x) = every simpleForced x := sf_setComments _ x

theorem sfL_modLast {f : Expr → Expr} (hf : ∀ x, every simpleForced (f x) = every simpleForced x) : ∀ {l}, SfL l → SfL (modLast f l)
  | [], h => h
  | [x], h => by
    rw [modLast, sfL_cons]
    rw [sfL_cons] at h
    exact ⟨(hf x).trans h.1, h.2⟩
  | x :: y :: l, h => by
    rw [sfL_cons] at h
    rw [modLast, sfL_cons]
    · exact ⟨h.1, sfL_modLast hf h.2⟩
    · simp

theorem sfL_modHead {f : Expr → Expr} (hf : ∀ x, every simpleForced (f x) = every simpleForced x) : ∀ {l}, SfL l → SfL (modHead f l)
  | [], h => h
  | x :: l, h => by
    rw [sfL_cons] at h
    rw [modHead, sfL_cons]
    exact ⟨(hf x).trans h.1, h.2⟩

theorem sfL_dropLast : ∀ {l}, SfL l → SfL l.dropLast
  | [], h => h
  | [x], _ => rfl
  | x :: y :: l, h => by
    rw [sfL_cons] at h
    rw [List.dropLast, sfL_cons]
    · exact ⟨h.1, sfL_dropLast h.2⟩
    · simp

theorem sf_block (c p) : Sf (.commentBlock c p) := by rfl

theorem sf_addComment {v : Val} (h : SfV v) (p t) : SfV (addComment v p t) := by
  refine ⟨h.expr, ?_⟩
  refine sfL_modLast (fun x => sf_setAfter _ x) ?_
  split
  · exact h.exprs
  · rw [sfL_append, sfL_cons]
    exact ⟨h.exprs, sf_block _ _, sfL_nil⟩

theorem sf_addStmt {v w : Val} (h : SfV v) (h' : SfV w) : SfV (addStmt v w) := by
  unfold addStmt
  split
  · split
    · exact ⟨h.expr, sfL_append.2 ⟨h.exprs, h'.exprs⟩⟩
    · split
      · exact ⟨h.expr, sfL_append.2 ⟨sfL_dropLast h.exprs, sfL_modHead (fun x => sf_setBefore _ x) h'.exprs⟩⟩
      · exact ⟨h.expr, sfL_append.2 ⟨sfL_modLast (fun x => sf_setAfter _ x) h.exprs, sfL_modHead (fun x => sf_setBefore _ x) h'.exprs⟩⟩
  · exact ⟨h.expr, sfL_append.2 ⟨h.exprs, h'.exprs⟩⟩

theorem sf_mkSuite {a b c v : Val} (h1 : SfV a) (h2 : SfV b) (h3 : SfV c) (h : mkSuite a b c = some v) : SfV v := by
  unfold mkSuite at h
  split at h
  · cases h; exact ⟨h1.expr, h3.exprs⟩
  · split at h
    · rename_i s l _ e _
      have h4 := h3.exprs
      rw [e, sfL_cons] at h4
      split at h
      · cases h
        refine ⟨h1.expr, sfL_append.2 ⟨sfL_dropLast h2.exprs, sfL_cons.2 ⟨?_, h4.2⟩⟩⟩
        exact (sf_setBefore _ _).trans h4.1
      · cases h
        exact ⟨h1.expr, sfL_append.2 ⟨h2.exprs, h3.exprs⟩⟩
    · cases h

theorem sf_extractLoop (n : Nat) : ∀ (b : Bool) (l : List Expr), SfL l → SfL (extractLoop n b l).1 ∧ SfL (extractLoop n b l).2
  | _, [], _ => ⟨rfl, rfl⟩
  | b, s :: l, h => by
    rw [sfL_cons] at h
    unfold extractLoop
    split
    · dsimp only
      refine ⟨?_, sfL_cons.2 ⟨sf_block _ _, h.2⟩⟩
      split
      · rfl
      · rw [sfL_cons]; exact ⟨(sf_setAfter _ _).trans h.1, rfl⟩
    · have ih := sf_extractLoop n false l h.2
      dsimp only
      exact ⟨sfL_cons.2 ⟨h.1, ih.1⟩, ih.2⟩

theorem splitAtLastStmt_append : ∀ {l a b : List Expr}, splitAtLastStmt l = some (a, b) → l = a ++ b
  | [], _, _, h => by cases h
  | x :: l, a, b, h => by
    unfold splitAtLastStmt at h
    split at h
    · rename_i e
      cases h
      rw [List.cons_append, ← splitAtLastStmt_append e]
    · split at h
      · cases h
      · cases h; rfl

theorem sf_extractBody {l : List Expr} (h : SfL l) : SfL (extractBody l).1 ∧ SfL (extractBody l).2 := by
  unfold extractBody
  split
  · exact ⟨rfl, rfl⟩
  · split
    · exact ⟨h, rfl⟩
    · rename_i a b e
      rw [splitAtLastStmt_append e, sfL_append] at h
      dsimp only
      have := sf_extractLoop (by assumption : Expr).startPos.lineRune true b h.2
      exact ⟨sfL_append.2 ⟨h.1, this.1⟩, this.2⟩

theorem sf_def {c p n ps b q f g t} : Sf (.defS c p n ps b q f g t) ↔ SfL ps ∧ SfL b ∧ Sf t := by
  simp [Sf, every, simpleForced, and_assoc]
theorem sf_for {c p v x b} : Sf (.forS c p v x b) ↔ Sf v ∧ Sf x ∧ SfL b := by
  simp [Sf, every, simpleForced, and_assoc]
theorem sf_if {c p x t e f} : Sf (.ifS c p x t e f) ↔ Sf x ∧ SfL t ∧ SfL f := by
  simp [Sf, every, simpleForced, and_assoc]

theorem sf_extractTrailing : ∀ (n : Nat) (s : Expr), Sf s → Sf (extractTrailing n s).1 ∧ SfL (extractTrailing n s).2
  | 0, _, h => ⟨h, rfl⟩
  | n + 1, s, h => by
    unfold extractTrailing
    split
    · rw [sf_def] at h
      have := sf_extractBody h.2.1
      exact ⟨sf_def.2 ⟨h.1, this.1, h.2.2⟩, this.2⟩
    · rw [sf_for] at h
      have := sf_extractBody h.2.2
      exact ⟨sf_for.2 ⟨h.1, h.2.1, this.1⟩, this.2⟩
    · rw [sf_if] at h
      split
      · have := sf_extractBody h.2.1
        exact ⟨sf_if.2 ⟨h.1, this.1, rfl⟩, this.2⟩
      · have := sf_extractTrailing n _ (sfL_cons.1 h.2.2).1
        exact ⟨sf_if.2 ⟨h.1, h.2.1, sfL_cons.2 ⟨this.1, rfl⟩⟩, this.2⟩
      · have := sf_extractBody h.2.2
        exact ⟨sf_if.2 ⟨h.1, h.2.1, this.1⟩, this.2⟩
    · exact ⟨h, rfl⟩

theorem sf_setElse : ∀ {n : Nat} {p : Pos} {new : List Expr} {s e : Expr}, SfL new → Sf s → setElse n p new s = some e → Sf e
  | 0, _, _, _, _, _, _, h => by cases h
  | n + 1, p, new, s, e, hn, hs, h => by
    unfold setElse at h
    split at h
    · cases h
    · rename_i e1
      cases e1
      rw [sf_if] at hs
      split at h
      · rw [Option.map_eq_some_iff] at h
        obtain ⟨x', hx, rfl⟩ := h
        exact sf_if.2 ⟨hs.1, hs.2.1, sfL_cons.2 ⟨sf_setElse hn (sfL_cons.1 hs.2.2).1 hx, rfl⟩⟩
      · cases h
        exact sf_if.2 ⟨hs.1, hs.2.1, hn⟩
    · cases h

theorem sf_mkBinary {x y p op} (hx : Sf x) (hy : Sf y) : Sf (mkBinary x p op y) := by
  unfold mkBinary
  dsimp only
  split <;> simp [Sf, every, simpleForced, hx, hy]
theorem sf_mkUnary {x p op} (hx : Sf x) : Sf (mkUnary p op x) := by
  simpa [Sf, mkUnary, every, simpleForced] using hx
theorem sf_mkTyped {x y} (hx : Sf x) (hy : Sf y) : Sf (mkTyped x y) := by
  unfold mkTyped
  split <;> simp_all [Sf, every, simpleForced]

theorem sf_tupleAppend {x y} (hx : Sf x) (hy : Sf y) : Sf (tupleAppend x y) := by
  unfold tupleAppend
  split
  · simp only [Sf, every, Bool.and_eq_true, simpleForced] at hx ⊢
    exact ⟨rfl, sfL_append.2 ⟨hx.2, sfL_cons.2 ⟨hy, rfl⟩⟩⟩
  · simp only [Sf, every, Bool.and_eq_true, simpleForced]
    exact ⟨rfl, sfL_cons.2 ⟨hx, sfL_cons.2 ⟨hy, rfl⟩⟩⟩

theorem sf_semStmt {r : Nat} {a1 a2 a3 a4 a5 a6 v : Val} (h1 : SfV a1) (h2 : SfV a2) (h3 : SfV a3) (h4 : SfV a4) (h5 : SfV a5) (h6 : SfV a6)
    (h : semStmt r a1 a2 a3 a4 a5 a6 = some v) : SfV v := by
  unfold semStmt at h
  split at h
  all_goals try (cases h; first | exact h1 | exact ⟨h1.expr, h1.exprs⟩)
  · exact sf_mkSuite h1 h2 h4 h
  · cases h; exact sf_addComment h1 _ _
  · cases h; exact sf_addStmt h1 h2
  · cases h; exact sf_addComment h1 _ _
  · cases h
    have := sf_extractTrailing (chainLength a1.expr) a1.expr h1.expr
    exact ⟨h1.expr, sfL_cons.2 this⟩
  · cases h; exact ⟨sf_def.2 ⟨h4.exprs, rfl, rfl⟩, h1.exprs⟩
  · split at h
    · rename_i e
      have := h1.expr
      rw [e, sf_def] at this
      cases h
      exact ⟨sf_def.2 ⟨this.1, this.2.1, h3.expr⟩, h1.exprs⟩
    · cases h
  · split at h
    · rename_i e
      have := h1.expr
      rw [e, sf_def] at this
      cases h
      exact ⟨sf_def.2 ⟨this.1, h3.exprs, this.2.2⟩, h1.exprs⟩
    · cases h
  · cases h; exact ⟨sf_for.2 ⟨h2.expr, h4.expr, h6.exprs⟩, h1.exprs⟩
  · cases h; exact ⟨sf_if.2 ⟨h2.expr, h4.exprs, rfl⟩, h1.exprs⟩
  · rw [Option.map_eq_some_iff] at h
    obtain ⟨e, he, rfl⟩ := h
    exact ⟨sf_setElse (sfL_cons.2 ⟨sf_if.2 ⟨h3.expr, h5.exprs, rfl⟩, rfl⟩) h1.expr he, h1.exprs⟩
  · rw [Option.map_eq_some_iff] at h
    obtain ⟨e, he, rfl⟩ := h
    exact ⟨sf_setElse h4.exprs h1.expr he, h1.exprs⟩
  · cases h; exact ⟨h1.expr, sfL_cons.2 ⟨h1.expr, h2.exprs⟩⟩
  · cases h; exact ⟨h1.expr, sfL_append.2 ⟨h1.exprs, sfL_cons.2 ⟨h3.expr, rfl⟩⟩⟩
  · cases h; exact ⟨by simpa [Sf, every, simpleForced] using h2.expr, h1.exprs⟩
  · cases h; exact ⟨by rfl, h1.exprs⟩
  · cases h; exact ⟨sf_mkBinary h1.expr h3.expr, h1.exprs⟩
  · cases h; exact ⟨sf_mkBinary h1.expr h3.expr, h1.exprs⟩
  · cases h; exact ⟨by rfl, h1.exprs⟩
  · cases h; exact ⟨by rfl, h1.exprs⟩
  · cases h; exact ⟨by rfl, h1.exprs⟩

theorem sf_semPrimary {r : Nat} {a1 a2 a3 a4 a5 a6 a7 a8 v : Val} (h1 : SfV a1) (h2 : SfV a2) (h3 : SfV a3) (h5 : SfV a5) (h7 : SfV a7)
    (h : semPrimary r a1 a2 a3 a4 a5 a6 a7 a8 = some v) : SfV v := by
  have e1 := h1.expr
  have e2 := h2.expr
  have e3 := h3.expr
  have e5 := h5.expr
  have e7 := h7.expr
  have l2 := h2.exprs
  have l3 := h3.exprs
  unfold semPrimary at h
  split at h
  case h_12 =>
    split at h
    · rename_i x e
      rw [e, sfL_cons] at l2
      split at h
      · cases h; exact ⟨by simpa [Sf, every, simpleForced] using l2.1, h1.exprs⟩
      · cases h
        refine ⟨?_, h1.exprs⟩
        simp only [Sf, every, simpleForced, Bool.and_eq_true, Bool.false_or]
        exact ⟨forced_ok _ _ _, sfL_cons.2 ⟨l2.1, rfl⟩⟩
    · cases h
      refine ⟨?_, h1.exprs⟩
      simp only [Sf, every, simpleForced, Bool.and_eq_true, Bool.false_or]
      exact ⟨forced_ok _ _ _, l2⟩
  case h_3 =>
    cases h
    refine ⟨?_, h1.exprs⟩
    simp only [Sf, every, simpleForced, Bool.and_eq_true]
    exact ⟨⟨forced_ok _ _ _, e1⟩, l3⟩
  all_goals
    cases h
    first
    | exact h1
    | exact ⟨h1.expr, rfl⟩
    | exact ⟨h1.expr, sfL_cons.2 ⟨e2, rfl⟩⟩
    | exact ⟨h1.expr, sfL_append.2 ⟨h1.exprs, sfL_cons.2 ⟨e3, rfl⟩⟩⟩
    | exact ⟨sf_mkBinary e1 e3, h1.exprs⟩
    | exact ⟨sf_mkUnary e2, h1.exprs⟩
    | (refine ⟨?_, h1.exprs⟩
       simp_all [Sf, every, simpleForced]; done)

theorem sf_semParam {r : Nat} {a1 a2 a3 a4 a5 v : Val} (h1 : SfV a1) (h2 : SfV a2) (h3 : SfV a3) (h4 : SfV a4) (h5 : SfV a5)
    (h : semParam r a1 a2 a3 a4 a5 = some v) : SfV v := by
  unfold semParam at h
  split at h
  all_goals
    cases h
    first
    | exact h1
    | exact ⟨h1.expr, h1.exprs⟩
    | exact ⟨h1.expr, rfl⟩
    | exact ⟨h1.expr, sfL_cons.2 ⟨h1.expr, rfl⟩⟩
    | exact ⟨h1.expr, sfL_append.2 ⟨h1.exprs, sfL_cons.2 ⟨h3.expr, rfl⟩⟩⟩
    | exact ⟨sf_mkBinary h1.expr h3.expr, h1.exprs⟩
    | exact ⟨sf_mkUnary h2.expr, h1.exprs⟩
    | exact ⟨sf_mkUnary sf_nil, h1.exprs⟩
    | exact ⟨sf_mkTyped h1.expr h3.expr, h1.exprs⟩
    | exact ⟨sf_mkBinary (sf_mkTyped h1.expr h3.expr) h5.expr, h1.exprs⟩
    | exact ⟨sf_mkUnary (sf_mkTyped h2.expr h4.expr), h1.exprs⟩
    | exact ⟨sf_tupleAppend h1.expr h3.expr, h1.exprs⟩
    | exact ⟨sf_nil, h1.exprs⟩

theorem sf_semTest {r : Nat} {a1 a2 a3 a4 a5 v : Val} (h1 : SfV a1) (h2 : SfV a2) (h3 : SfV a3) (h4 : SfV a4) (h5 : SfV a5)
    (h : semTest r a1 a2 a3 a4 a5 = some v) : SfV v := by
  unfold semTest at h
  split at h
  · cases h; exact h1
  split at h
  · cases h
    refine ⟨?_, h1.exprs⟩
    simp only [Sf, every, simpleForced, Bool.and_eq_true, Bool.true_and]
    exact ⟨h2.exprs, sfL_cons.2 ⟨h4.expr, rfl⟩⟩
  split at h
  · cases h; exact ⟨sf_mkUnary h2.expr, h1.exprs⟩
  split at h
  · cases h; refine ⟨?_, h1.exprs⟩; dsimp only; exact sf_mkBinary h1.expr h4.expr
  split at h
  · split at h
    · rename_i e
      have e3 := h3.expr
      rw [e] at e3
      split at h
      · cases h
        refine ⟨?_, h1.exprs⟩
        dsimp only
        exact sf_mkBinary h1.expr (by simpa [Sf, every, simpleForced] using e3)
      · cases h; exact ⟨sf_mkBinary h1.expr e3, h1.exprs⟩
    · cases h; exact ⟨sf_mkBinary h1.expr h3.expr, h1.exprs⟩
  split at h
  · cases h
    refine ⟨?_, h1.exprs⟩
    simp only [Sf, every, simpleForced, Bool.and_eq_true, Bool.true_and]
    exact ⟨⟨h1.expr, h3.expr⟩, h5.expr⟩
  · cases h; exact ⟨sf_mkBinary h1.expr h3.expr, h1.exprs⟩

theorem sf_semList {r : Nat} {a1 a2 a3 a4 v : Val} (h1 : SfV a1) (h2 : SfV a2) (h3 : SfV a3) (h4 : SfV a4)
    (h : semList r a1 a2 a3 a4 = some v) : SfV v := by
  unfold semList at h
  split at h
  all_goals
    cases h
    first
    | exact h1
    | exact ⟨h1.expr, h1.exprs⟩
    | exact ⟨h1.expr, rfl⟩
    | exact ⟨h1.expr, sfL_cons.2 ⟨h1.expr, rfl⟩⟩
    | exact ⟨h1.expr, sfL_append.2 ⟨h1.exprs, sfL_cons.2 ⟨h3.expr, rfl⟩⟩⟩
    | exact ⟨h1.expr, sfL_append.2 ⟨h1.exprs, h2.exprs⟩⟩
    | exact ⟨sf_tupleAppend h1.expr h3.expr, h1.exprs⟩
    | exact ⟨sf_nil, h1.exprs⟩
    | exact ⟨by rfl, h1.exprs⟩
    | (refine ⟨?_, h1.exprs⟩
       have := h1.expr; have := h2.expr; have := h3.expr; have := h4.expr
       simp_all [Sf, every, simpleForced]; done)
    | (refine ⟨h1.expr, sfL_append.2 ⟨h1.exprs, sfL_cons.2 ⟨?_, rfl⟩⟩⟩
       simpa [Sf, every, simpleForced] using h3.expr)

theorem sf_sem {r : Nat} {vs : List Val} {v : Val} (hv : ∀ u ∈ vs, SfV u) (h : sem r vs = some v) : SfV v := by
  have g : ∀ i, SfV (vs.getD i {}) := by
    intro i
    rw [List.getD_eq_getElem?_getD]
    cases hi : vs[i]? with
    | none => exact sfV_default
    | some u => exact hv u (List.mem_of_getElem? hi)
  unfold sem at h
  dsimp only at h
  split at h
  · exact sf_semStmt (g _) (g _) (g _) (g _) (g _) (g _) h
  split at h
  · exact sf_semPrimary (g _) (g _) (g _) (g _) (g _) h
  split at h
  · exact sf_semParam (g _) (g _) (g _) (g _) (g _) h
  split at h
  · exact sf_semTest (g _) (g _) (g _) (g _) (g _) h
  · exact sf_semList (g _) (g _) (g _) (g _) h

/-- **In a parsed tree, what is forced onto one line is simple.** -/
theorem forced_deriv {x : Sym} {ts : List Tok} {v : Val} (h : Deriv x ts v) : SfV v := by
  refine Deriv.rec (motive_1 := fun _ _ v _ => SfV v) (motive_2 := fun _ _ vs _ => ∀ u ∈ vs, SfV u) ?_ ?_ ?_ ?_ h
  · intro t; exact ⟨rfl, rfl⟩
  · intro r a rhs ts vs v _ _ hs ih
    exact sf_sem ih hs
  · simp
  · intro x xs ts ts' v vs _ _ h1 h2 u hu
    rcases List.mem_cons.1 hu with rfl | hu
    · exact h1
    · exact h2 u hu

end Verif.Again
