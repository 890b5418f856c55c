import Verif.Model.Print
/-
The printer restores depth and margin.
-/
namespace Verif.Round
open Verif Verif.Syntax Verif.Print Verif.Parser

/-- the same nesting -/
def Keep (st st' : St) : Prop := st'.depth = st.depth ∧ st'.margin = st.margin

theorem Keep.rfl' {st : St} : Keep st st := ⟨rfl, rfl⟩
theorem Keep.trans {a b c : St} (h1 : Keep a b) (h2 : Keep b c) : Keep a c := ⟨h2.1.trans h1.1, h2.2.trans h1.2⟩

theorem keep_ite {c : Prop} [Decidable c] {st a b : St} (h1 : Keep st a) (h2 : Keep st b) : Keep st (if c then a else b) := by
  split
  · exact h1
  · exact h2

theorem keep_emit (s : Bytes) (st : St) : Keep st (emit s st) := ⟨rfl, rfl⟩
theorem keep_trim (st : St) : Keep st (trim st) := ⟨rfl, rfl⟩

theorem keep_flush (m : Nat) : ∀ (l : List Comment) (b : Bool) (st : St), Keep st (flushComments m b l st) := by
  intro l
  induction l with
  | nil => intro b st; exact ⟨rfl, rfl⟩
  | cons c l ih =>
    intro b st
    unfold flushComments
    cases b
    · exact Keep.trans ⟨rfl, rfl⟩ (ih false _)
    · exact Keep.trans ⟨rfl, rfl⟩ (ih false _)

theorem keep_newline (st : St) : Keep st (newline st) := by
  unfold newline
  dsimp only
  split
  · exact ⟨rfl, rfl⟩
  · exact keep_flush _ _ _ (emit b!"  " { st with needsNL := false })

theorem keep_nif (st : St) : Keep st (newlineIfNeeded st) := by
  unfold newlineIfNeeded
  split
  · exact keep_newline st
  · exact ⟨rfl, rfl⟩

theorem keep_breakline (st : St) : Keep st (breakline st) := by
  unfold breakline
  split
  · exact ⟨rfl, rfl⟩
  · exact keep_newline st

theorem keep_after : ∀ (l : List Comment) (st : St), Keep st (afterComments l st) := by
  intro l
  induction l with
  | nil => intro st; exact ⟨rfl, rfl⟩
  | cons c l ih => intro st; exact Keep.trans (keep_nif st) (Keep.trans (b := softNewline (emit (comText c) (newlineIfNeeded st))) ⟨rfl, rfl⟩ (ih _))

theorem keep_end : ∀ (l : List Comment) (st : St), Keep st (endComments l st) := by
  intro l
  induction l with
  | nil => intro st; exact ⟨rfl, rfl⟩
  | cons c l ih => intro st; exact Keep.trans (keep_newline st) (Keep.trans (b := emit (comText c) (newline st)) ⟨rfl, rfl⟩ (ih _))

theorem keep_before (l : List Comment) (st : St) : Keep st (beforeComments l st) := by
  unfold beforeComments
  split
  · exact ⟨rfl, rfl⟩
  · have key : ∀ (l : List Comment) (st : St), Keep st (l.foldl (fun st c => newline (emit (comText c) st)) st) := by
      intro l
      induction l with
      | nil => intro st; exact ⟨rfl, rfl⟩
      | cons c l ih => intro st; exact Keep.trans (Keep.trans (b := emit (comText c) st) ⟨rfl, rfl⟩ (keep_newline _)) (ih _)
    dsimp only
    split
    · exact Keep.trans (b := emit (spaces (emit b!"\n" (trim st)).margin) (emit b!"\n" (trim st))) ⟨rfl, rfl⟩ (key _ _)
    · exact Keep.trans (b := emit (spaces (trim st).margin) (trim st)) ⟨rfl, rfl⟩ (key _ _)

/-! ## The parts of `seq` -/

def seqOpen (m : Mode) (o : Bytes) (st : St) : St :=
  let st := if m = .seq then st else emit o st
  { st with depth := st.depth + 1 }

def seqCompact (pr : Pr) (m : Mode) (args : List Expr) (st : St) : St :=
  let st := compactElems pr true args st
  if args.length = 1 ∧ m = .tuple then emit b!"," st else st

def seqEnd (e : Option EndN) (st : St) : St :=
  match e with
  | some e => endComments e.comments.before st
  | none => st

def seqMulti (pr : Pr) (m : Mode) (args : List Expr) (e : Option EndN) (st : St) : St :=
  let ind := if m = .def_ then defIndentation else listIndentation
  let st := seqEnd e (multiElems pr m true args { st with margin := st.margin + ind })
  let st := { st with margin := st.margin - ind }
  if m = .def_ then st else newline st

def seqClose (m : Mode) (c : Bytes) (st : St) : St :=
  let st := { st with depth := st.depth - 1 }
  if m = .seq then st else emit c st

theorem seq_eq (ft : FileType) (pr : Pr) (o c : Bytes) (start : Pos) (list : List Expr) (e : Option EndN) (m : Mode) (fc fm : Bool) (st : St) :
    seq ft pr o c start list e m fc fm st = seqClose m c (if useCompact ft (seqOpen m o st).level start (list.filter (fun x => !x.isNil)) e m fc fm
      then seqCompact pr m (list.filter (fun x => !x.isNil)) (seqOpen m o st) else seqMulti pr m (list.filter (fun x => !x.isNil)) e (seqOpen m o st)) := by
  cases e <;> rfl

section
variable {ft : FileType} {pr : Pr} (hpr : ∀ e o st, Keep st (pr e o st))
include hpr

theorem keep_stmtLoop : ∀ (l : List Expr) (st : St), Keep st (stmtLoop ft pr l st) := by
  intro l
  induction l with
  | nil => intro st; exact ⟨rfl, rfl⟩
  | cons s l ih =>
    intro st
    unfold stmtLoop
    dsimp only
    have h1 : Keep st (afterComments s.comments.after (if isCommentBlock s then pr s 0 st else softNewline (pr s 0 st))) := by
      refine Keep.trans (hpr s 0 st) (Keep.trans ?_ (keep_after _ _))
      split
      · exact ⟨rfl, rfl⟩
      · exact ⟨rfl, rfl⟩
    cases l with
    | nil => exact h1
    | cons s2 l' =>
      dsimp only
      exact Keep.trans h1 (Keep.trans (keep_ite (keep_newline _) (Keep.trans (keep_newline _) (keep_newline _))) (ih _))

theorem keep_nested (l : List Expr) (st : St) : Keep st (nestedStatements ft pr l st) := by
  unfold nestedStatements statements
  dsimp only
  have h1 := keep_newline { st with margin := st.margin + nestedIndentation, level := st.level + 1 }
  have h2 := keep_stmtLoop (ft := ft) hpr (l.filter (fun x => !x.isNil)) (newline { st with margin := st.margin + nestedIndentation, level := st.level + 1 })
  refine ⟨h2.1.trans h1.1, ?_⟩
  show _ - nestedIndentation = st.margin
  rw [h2.2, h1.2]
  exact Nat.add_sub_cancel ..

theorem keep_compact : ∀ (l : List Expr) (b : Bool) (st : St), Keep st (compactElems pr b l st) := by
  intro l
  induction l with
  | nil => intro b st; exact ⟨rfl, rfl⟩
  | cons x l ih =>
    intro b st
    unfold compactElems
    refine Keep.trans ?_ (ih false _)
    cases b
    · exact Keep.trans (keep_emit _ _) (hpr _ _ _)
    · exact hpr _ _ _

theorem keep_multi (m : Mode) : ∀ (l : List Expr) (b : Bool) (st : St), Keep st (multiElems pr m b l st) := by
  intro l
  induction l with
  | nil => intro b st; exact ⟨rfl, rfl⟩
  | cons x l ih =>
    intro b st
    unfold multiElems
    dsimp only
    refine Keep.trans ?_ (ih false _)
    refine Keep.trans (b := if b && !st.comment.isEmpty then emit (10 :: spaces (st.margin - 2)) st else st) (by split <;> exact ⟨rfl, rfl⟩) ?_
    exact Keep.trans (keep_newline _) (Keep.trans (hpr x 0 _) (keep_ite ⟨rfl, rfl⟩ ⟨rfl, rfl⟩))

theorem keep_seqCompact (m : Mode) (args : List Expr) (st : St) : Keep st (seqCompact pr m args st) :=
  keep_ite (Keep.trans (keep_compact hpr _ _ _) (keep_emit _ _)) (keep_compact hpr _ _ _)

theorem keep_seqMulti (m : Mode) (args : List Expr) (e : Option EndN) (st : St) : Keep st (seqMulti pr m args e st) := by
  unfold seqMulti
  dsimp only
  generalize (if m = Mode.def_ then defIndentation else listIndentation) = ind
  have h1 := keep_multi hpr m args true { st with margin := st.margin + ind }
  have h2 : Keep { st with margin := st.margin + ind } (seqEnd e (multiElems pr m true args { st with margin := st.margin + ind })) := by
    cases e with
    | none => exact h1
    | some e => exact Keep.trans h1 (keep_end _ _)
  revert h2
  generalize seqEnd e (multiElems pr m true args { st with margin := st.margin + ind }) = st2
  intro h2
  have h3 : Keep st { st2 with margin := st2.margin - ind } := by
    refine ⟨h2.1, ?_⟩
    show st2.margin - ind = st.margin
    rw [h2.2]; exact Nat.add_sub_cancel ..
  exact keep_ite h3 (Keep.trans h3 (keep_newline _))

theorem keep_seq (o c : Bytes) (start : Pos) (list : List Expr) (e : Option EndN) (m : Mode) (fc fm : Bool) (st : St) :
    Keep st (seq ft pr o c start list e m fc fm st) := by
  rw [seq_eq]
  have key : ∀ st2 : St, Keep (seqOpen m o st) st2 → Keep st (seqClose m c st2) := by
    intro st2 h
    have h1 : (seqOpen m o st).depth = st.depth + 1 ∧ (seqOpen m o st).margin = st.margin := by
      unfold seqOpen; dsimp only; split <;> exact ⟨rfl, rfl⟩
    have : Keep st { st2 with depth := st2.depth - 1 } := by
      refine ⟨?_, h.2.trans h1.2⟩
      show st2.depth - 1 = st.depth
      rw [h.1, h1.1]; simp
    exact keep_ite this this
  exact key _ (keep_ite (keep_seqCompact hpr _ _ _) (keep_seqMulti hpr _ _ _ _))

theorem keep_clauses (m : Bool) : ∀ (l : List Expr) (st : St), Keep st (clauseElems pr m l st) := by
  intro l
  induction l with
  | nil => intro st; exact ⟨rfl, rfl⟩
  | cons x l ih =>
    intro st
    unfold clauseElems
    refine Keep.trans ?_ (ih _)
    cases m
    · exact Keep.trans (keep_emit _ _) (hpr _ _ _)
    · exact Keep.trans (keep_breakline _) (hpr _ _ _)

theorem keep_listFor (cu : Bool) (b : Expr) (cl : List Expr) (fm : Bool) (e : EndN) (st : St) : Keep st (listFor pr cu b cl fm e st) := by
  unfold listFor
  dsimp only
  have key : ∀ st2 : St, Keep { st with depth := st.depth + 1 } st2 → Keep st { emit (if cu then b!"}" else b!"]") st2 with depth := (emit (if cu then b!"}" else b!"]") st2).depth - 1 } := by
    intro st2 h
    refine ⟨?_, h.2⟩
    show st2.depth - 1 = st.depth
    rw [h.1]; simp
  apply key
  cases hm : (fm || !e.comments.before.isEmpty) with
  | false =>
    simp only [Bool.false_eq_true, if_false]
    exact Keep.trans (keep_emit _ _) (Keep.trans (hpr _ _ _) (keep_clauses hpr _ _ _))
  | true =>
    simp only [if_true]
    generalize hs : emit (if cu then b!"{" else b!"[") { st with depth := st.depth + 1 } = st0
    have h0 : Keep { st with depth := st.depth + 1 } st0 := by rw [← hs]; exact ⟨rfl, rfl⟩
    have h1 : Keep { st0 with margin := st0.margin + listIndentation } (endComments e.comments.before (clauseElems pr true cl (pr b 0 (newline { st0 with margin := st0.margin + listIndentation })))) :=
      Keep.trans (keep_newline _) (Keep.trans (hpr _ _ _) (Keep.trans (keep_clauses hpr _ _ _) (keep_end _ _)))
    revert h1
    generalize (endComments e.comments.before (clauseElems pr true cl (pr b 0 (newline { st0 with margin := st0.margin + listIndentation })))) = st2
    intro h1
    refine Keep.trans h0 (Keep.trans (b := { st2 with margin := st2.margin - listIndentation }) ?_ (keep_newline _))
    refine ⟨h1.1, ?_⟩
    show st2.margin - listIndentation = st0.margin
    rw [h1.2]; exact Nat.add_sub_cancel ..

theorem keep_lambda : ∀ (l : List Expr) (b : Bool) (st : St), Keep st (lambdaParams pr b l st) := by
  intro l
  induction l with
  | nil => intro b st; exact ⟨rfl, rfl⟩
  | cons x l ih =>
    intro b st
    unfold lambdaParams
    dsimp only
    refine Keep.trans ?_ (ih false _)
    cases b
    · exact Keep.trans (Keep.trans (keep_emit _ _) (keep_emit _ _)) (hpr _ _ _)
    · exact Keep.trans (keep_emit _ _) (hpr _ _ _)

theorem keep_ifChain : ∀ (f : Nat) (b n : Bool) (co : Expr) (tr : List Expr) (ep : EndN) (fa : List Expr) (st : St),
    Keep st (ifChain ft pr f b n co tr ep fa st) := by
  intro f
  induction f with
  | zero => intros; exact ⟨rfl, rfl⟩
  | succ f ih =>
    intro b n co tr ep fa st
    unfold ifChain
    dsimp only
    have h1 : Keep st (if tr.isEmpty then { nestedStatements ft pr tr (emit b!":" (pr co 0 (emit b!"if " (if b then newlineIfNeeded st else emit b!"el" (if n then newline (newlineIfNeeded st) else newlineIfNeeded st))))) with bad := true }
        else nestedStatements ft pr tr (emit b!":" (pr co 0 (emit b!"if " (if b then newlineIfNeeded st else emit b!"el" (if n then newline (newlineIfNeeded st) else newlineIfNeeded st)))))) := by
      have h2 : Keep st (nestedStatements ft pr tr (emit b!":" (pr co 0 (emit b!"if " (if b then newlineIfNeeded st else emit b!"el" (if n then newline (newlineIfNeeded st) else newlineIfNeeded st)))))) := by
        refine Keep.trans (keep_nif st) (Keep.trans ?_ (Keep.trans (keep_emit _ _) (Keep.trans (hpr _ _ _) (Keep.trans (keep_emit _ _) (keep_nested hpr _ _)))))
        split
        · exact ⟨rfl, rfl⟩
        · split
          · exact Keep.trans (keep_newline _) (keep_emit _ _)
          · exact keep_emit _ _
      split
      · exact h2
      · exact h2
    revert h1
    generalize (if tr.isEmpty then { nestedStatements ft pr tr (emit b!":" (pr co 0 (emit b!"if " (if b then newlineIfNeeded st else emit b!"el" (if n then newline (newlineIfNeeded st) else newlineIfNeeded st))))) with bad := true }
        else nestedStatements ft pr tr (emit b!":" (pr co 0 (emit b!"if " (if b then newlineIfNeeded st else emit b!"el" (if n then newline (newlineIfNeeded st) else newlineIfNeeded st)))))) = st1
    intro h1
    generalize (decide (ep.pos.line > (endPosLast tr).line + 1)) = ne
    have h3 : Keep st (if fa.isEmpty then st1
      else nestedStatements ft pr fa { emit b!"else:" (if ne then newline (newlineIfNeeded st1) else newlineIfNeeded st1) with
          comment := (emit b!"else:" (if ne then newline (newlineIfNeeded st1) else newlineIfNeeded st1)).comment ++ ep.comments.suffix }) := by
      split
      · exact h1
      · refine Keep.trans h1 (Keep.trans (keep_nif _) (Keep.trans (b := { emit b!"else:" (if ne then newline (newlineIfNeeded st1) else newlineIfNeeded st1) with
          comment := (emit b!"else:" (if ne then newline (newlineIfNeeded st1) else newlineIfNeeded st1)).comment ++ ep.comments.suffix }) ?_ (keep_nested hpr _ _)))
        split
        · exact keep_newline _
        · exact ⟨rfl, rfl⟩
    split
    · split
      · exact Keep.trans h1 (ih _ _ _ _ _ _ _)
      · exact h3
    · exact h3

theorem keep_body (f : Nat) (v : Expr) (outer : Nat) (st : St) : Keep st (exprBody ft pr f v outer st) := by
  have wp : ∀ (p o : Nat) (body : St → St) (st : St), (∀ st, Keep st (body st)) → Keep st (withParen p o body st) := by
    intro p o body st h
    unfold withParen
    split
    · have := h { emit b!"(" st with depth := st.depth + 1 }
      refine ⟨?_, this.2⟩
      show (body { emit b!"(" st with depth := st.depth + 1 }).depth - 1 = st.depth
      rw [this.1]; simp
    · exact h st
  unfold exprBody
  cases v <;> dsimp only
  case nil => exact ⟨rfl, rfl⟩
  case file => exact ⟨rfl, rfl⟩
  case commentBlock => exact ⟨rfl, rfl⟩
  case literal => exact ⟨rfl, rfl⟩
  case ident => exact ⟨rfl, rfl⟩
  case typedIdent => exact Keep.trans (hpr _ _ _) (Keep.trans (keep_emit _ _) (hpr _ _ _))
  case branch => exact ⟨rfl, rfl⟩
  case string => split <;> exact ⟨rfl, rfl⟩
  case dot c x dp np name =>
    refine wp _ _ _ _ (fun st => ?_)
    split
    · have h1 := hpr x precSuffix st
      have h2 := keep_breakline { (pr x precSuffix st) with margin := (pr x precSuffix st).margin + listIndentation }
      refine ⟨?_, ?_⟩
      · exact h2.1.trans h1.1
      · show (breakline { (pr x precSuffix st) with margin := (pr x precSuffix st).margin + listIndentation }).margin - listIndentation = st.margin
        rw [h2.2]
        show (pr x precSuffix st).margin + listIndentation - listIndentation = _
        rw [h1.2]; exact Nat.add_sub_cancel ..
    · exact Keep.trans (hpr _ _ _) (keep_emit _ _)
  case index => exact wp _ _ _ _ (fun st => Keep.trans (hpr _ _ _) (Keep.trans (keep_emit _ _) (Keep.trans (hpr _ _ _) (keep_emit _ _))))
  case keyValue => exact Keep.trans (hpr _ _ _) (Keep.trans (keep_emit _ _) (hpr _ _ _))
  case slice =>
    refine wp _ _ _ _ (fun st => Keep.trans ?_ (keep_emit _ _))
    have io : ∀ (e : Expr) (st : St), Keep st (if e.isNil then st else pr e 0 st) := by
      intro e st; split
      · exact ⟨rfl, rfl⟩
      · exact hpr _ _ _
    split
    · exact Keep.trans (hpr _ _ _) (Keep.trans (keep_emit _ _) (Keep.trans (io _ _) (Keep.trans (keep_emit _ _) (Keep.trans (io _ _) (Keep.trans (keep_emit _ _) (io _ _))))))
    · exact Keep.trans (hpr _ _ _) (Keep.trans (keep_emit _ _) (Keep.trans (io _ _) (Keep.trans (keep_emit _ _) (io _ _))))
  case unary =>
    refine wp _ _ _ _ (fun st => ?_)
    split
    · split
      · exact ⟨rfl, rfl⟩
      · exact ⟨rfl, rfl⟩
    · refine Keep.trans ?_ (hpr _ _ _)
      split
      · exact ⟨rfl, rfl⟩
      · exact ⟨rfl, rfl⟩
  case lambda c sp ps b =>
    refine wp _ _ _ _ (fun st => ?_)
    refine Keep.trans (b := emit b!": " (lambdaParams pr true ps (emit b!"lambda" st))) (Keep.trans (keep_emit _ _) (Keep.trans (keep_lambda hpr _ _ _) (keep_emit _ _))) ?_
    split
    · exact hpr _ _ _
    · exact ⟨rfl, rfl⟩
  case binary c x p op lb y =>
    refine wp _ _ _ _ (fun st => ?_)
    cases lb
    · exact ⟨(Keep.trans (hpr x (opPrec op) st) (Keep.trans (keep_emit _ _) (Keep.trans (keep_emit _ _) (hpr y (opPrec op + 1) _)))).1, rfl⟩
    · exact ⟨(Keep.trans (hpr x (opPrec op) { st with margin := Print.indent st }) (Keep.trans (keep_emit _ _) (Keep.trans (keep_breakline _) (hpr y (opPrec op + 1) _)))).1, rfl⟩
  case assign c x p op lb y =>
    refine wp _ _ _ _ (fun st => ?_)
    cases lb
    · exact ⟨(Keep.trans (hpr x precAssign st) (Keep.trans (keep_emit _ _) (Keep.trans (keep_emit _ _) (hpr y (precAssign + 1) _)))).1, rfl⟩
    · exact ⟨(Keep.trans (hpr x precAssign { st with margin := Print.indent st + listIndentation }) (Keep.trans (keep_emit _ _) (Keep.trans (keep_breakline _) (hpr y (precAssign + 1) _)))).1, rfl⟩
  case paren => exact keep_seq hpr _ _ _ _ _ _ _ _ _
  case call => exact wp _ _ _ _ (fun st => Keep.trans (hpr _ _ _) (keep_seq hpr _ _ _ _ _ _ _ _ _))
  case load => exact wp _ _ _ _ (fun st => Keep.trans (keep_emit _ _) (keep_seq hpr _ _ _ _ _ _ _ _ _))
  case list => exact keep_seq hpr _ _ _ _ _ _ _ _ _
  case set => exact keep_seq hpr _ _ _ _ _ _ _ _ _
  case tuple => exact keep_seq hpr _ _ _ _ _ _ _ _ _
  case dict => exact keep_seq hpr _ _ _ _ _ _ _ _ _
  case compr => exact keep_listFor hpr _ _ _ _ _ _
  case cond =>
    exact wp _ _ _ _ (fun st => Keep.trans (hpr _ _ _) (Keep.trans (keep_emit _ _) (Keep.trans (hpr _ _ _) (Keep.trans (keep_emit _ _) (hpr _ _ _)))))
  case returnS =>
    split
    · exact ⟨rfl, rfl⟩
    · exact Keep.trans (Keep.trans (keep_emit _ _) (keep_emit _ _)) (hpr _ _ _)
  case defS =>
    refine Keep.trans (Keep.trans ?_ (keep_emit _ _)) (keep_nested hpr _ _)
    split
    · exact Keep.trans (Keep.trans (keep_emit _ _) (keep_emit _ _)) (keep_seq hpr _ _ _ _ _ _ _ _ _)
    · exact Keep.trans (Keep.trans (Keep.trans (keep_emit _ _) (keep_emit _ _)) (keep_seq hpr _ _ _ _ _ _ _ _ _)) (Keep.trans (keep_emit _ _) (hpr _ _ _))
  case forS =>
    exact Keep.trans (Keep.trans (Keep.trans (Keep.trans (Keep.trans (keep_emit _ _) (hpr _ _ _)) (keep_emit _ _)) (hpr _ _ _)) (keep_emit _ _)) (keep_nested hpr _ _)
  case ifS => exact keep_ifChain hpr _ _ _ _ _ _ _ _
  case forClause => exact Keep.trans (Keep.trans (Keep.trans (keep_emit _ _) (hpr _ _ _)) (keep_emit _ _)) (hpr _ _ _)
  case ifClause => exact Keep.trans (keep_emit _ _) (hpr _ _ _)
end

/-- printing an expression or statement restores the depth and the margin -/
theorem keep_expr (ft : FileType) : ∀ (f : Nat) (e : Expr) (o : Nat) (st : St), Keep st (expr ft f e o st) := by
  intro f
  induction f with
  | zero => intros; exact ⟨rfl, rfl⟩
  | succ f ih =>
    intro e o st
    have h1 := Keep.trans (keep_nif st) (keep_before e.comments.before (newlineIfNeeded st))
    have h2 := keep_body ih f e o (beforeComments e.comments.before (newlineIfNeeded st)) (ft := ft)
    exact Keep.trans h1 h2

end Verif.Round
