import Verif.Proofs.Again.ReS
/-
The second printing of statements and blocks.
-/
namespace Verif.Again
open Verif Verif.Syntax Verif.Lexer Verif.Print Verif.Parser Verif.Grammar Verif.Props.Grammar Verif.Round

section
variable {ft : FileType} {pr : Pr}

/-! ## Lists of statements -/

/-- the state in which the statement after `s` is printed -/
def nextS (ft : FileType) (pr : Pr) (s : Expr) (st : St) : List Expr → St
  | [] => st
  | s2 :: _ =>
    let st1 := newline (softNewline (pr s 0 st))
    if compactStmt ft st1.level s s2 then st1 else newline st1

/-- the statements with the states in which they are printed -/
def itemsS (ft : FileType) (pr : Pr) : List Expr → St → List It
  | [], _ => []
  | s :: l, st => (s, st) :: itemsS ft pr l (nextS ft pr s st l)

/-- the statement `y` was read from what is printed for the item -/
structure RS (ft : FileType) (pr : Pr) (it : It) (y : Expr) : Prop where
  ri : RI ft pr it y
  def_ : isDef y = isDef it.1
  block : isCommentBlock y = false
  com : (pr it.1 0 it.2).comment = []

/-- statements as the printer sees them -/
def Plain (s : Expr) : Prop := s.comments = {} ∧ isCommentBlock s = false ∧ s.isNil = false

theorem compactStmt_plain {lv : Nat} {s1 s2 : Expr} (hft : ft ≠ .module) (h1 : s1.comments = {}) (h2 : s2.comments = {}) (b1 : isCommentBlock s1 = false) (b2 : isCommentBlock s2 = false) :
    compactStmt ft lv s1 s2 = (if isLoad s1 && isLoad s2 then true else if isLoad s1 || isLoad s2 then false else if buildMode ft && lv = 0 then false
      else if isDef s1 || isDef s2 then false else decide (s2.startPos.line ≤ s1.endPos.line + 1)) := by
  unfold compactStmt
  rw [h1, h2, b1, b2, show decide (ft = FileType.module) = false by simpa using hft]
  simp only [List.isEmpty_nil, Bool.not_true, Bool.or_self, Bool.false_eq_true, if_false, Bool.false_and]

theorem stmtLoop_cons {s : Expr} {l : List Expr} {st : St} (h : s.comments = {}) (hb : isCommentBlock s = false) :
    stmtLoop ft pr (s :: l) st = match l with
      | [] => softNewline (pr s 0 st)
      | _ :: _ => stmtLoop ft pr l (nextS ft pr s st l) := by
  cases l with
  | nil =>
    unfold stmtLoop
    dsimp only
    rw [h, hb]
    rfl
  | cons s2 l =>
    rw [stmtLoop]
    dsimp only
    rw [h, hb]
    rfl

theorem soft_line (st : St) : line (softNewline st) = line st := rfl

theorem near {c : Bool} {x y : St} {n : Nat} (h1 : line x = n + 1) (h2 : line y = n + 2) : decide (line (if c = true then x else y) ≤ n + 1) = c := by
  cases c
  · rw [if_neg (by simp), h2]; simp
  · rw [if_pos rfl, h1]; simp

theorem stmtLoop_again (hft : ft ≠ .module) : ∀ {l l' : List Expr} {st : St}, All2 (RS ft pr) (itemsS ft pr l st) l' → l ≠ [] → (∀ s ∈ l, Plain s) →
    SameL l l' ∧ (∀ y ∈ l', y.isNil = false) ∧ (endPosLast l').line = line (stmtLoop ft pr l st) ∧ (stmtLoop ft pr l st).needsNL = true ∧ (stmtLoop ft pr l st).comment = [] ∧
      ∃ N, ∀ F, N ≤ F → stmtLoop ft (expr ft F) l' st = stmtLoop ft pr l st := by
  intro l
  induction l with
  | nil => intro l' st _ h; exact absurd rfl h
  | cons s l ih =>
    intro l' st h _ hpl
    cases h with
    | cons _ y _ l' h1 h2 =>
      obtain ⟨hp1, hp2, hp3⟩ := hpl s (by simp)
      obtain ⟨N1, e1⟩ := h1.ri.again
      dsimp only at e1
      rw [stmtLoop_cons hp1 hp2]
      cases l with
      | nil =>
        cases h2
        refine ⟨.cons _ _ _ _ h1.ri.same .nil, ?_, h1.ri.stop, rfl, h1.com, N1, fun F hF => ?_⟩
        · intro z hz; rw [List.mem_singleton.1 hz]; exact same_isNil h1.ri.same hp3
        · rw [stmtLoop_cons h1.ri.comm h1.block]
          dsimp only
          rw [e1 F hF]
      | cons s2 l =>
        have h2c := h2
        cases h2 with
        | cons _ y2 _ l' h3 h4 =>
          obtain ⟨i1, i2, i3, i4, i5, N2, e2⟩ := ih h2c (by simp) (fun x hx => hpl x (by simp [hx]))
          refine ⟨.cons _ _ _ _ h1.ri.same i1, ?_, i3, i4, i5, N1 + N2, fun F hF => ?_⟩
          · intro z hz
            rcases List.mem_cons.1 hz with rfl | hz
            · exact same_isNil h1.ri.same hp3
            · exact i2 z hz
          · rw [stmtLoop_cons h1.ri.comm h1.block]
            dsimp only
            have hnext : nextS ft (expr ft F) y st (y2 :: l') = nextS ft pr s st (s2 :: l) := by
              have hl2 := h3.ri.start
              have hl1 := h1.ri.stop
              dsimp only at hl1 hl2
              unfold nextS
              dsimp only
              rw [e1 F (by omega)]
              have key : compactStmt ft (newline (softNewline (pr s 0 st))).level y y2 = compactStmt ft (newline (softNewline (pr s 0 st))).level s s2 := by
                obtain ⟨hq1, hq2, _⟩ := hpl s2 (by simp)
                have hcm : (softNewline (pr s 0 st)).comment = [] := h1.com
                have hc1 : line (newline (softNewline (pr s 0 st))) = line (pr s 0 st) + 1 := by rw [line_newline' hcm]; rfl
                have hc2 : line (newline (newline (softNewline (pr s 0 st)))) = line (pr s 0 st) + 2 := by
                  rw [line_newline' (newline_comment hcm), hc1]
                have hv : decide (y2.startPos.line ≤ y.endPos.line + 1) = compactStmt ft (newline (softNewline (pr s 0 st))).level s s2 := by
                  rw [hl1, hl2]
                  unfold nextS
                  dsimp only
                  exact near hc1 hc2
                rw [compactStmt_plain hft h1.ri.comm h3.ri.comm h1.block h3.block, hv, compactStmt_plain hft hp1 hq1 hp2 hq2, h1.ri.load rfl, h3.ri.load rfl, h1.def_, h3.def_]
                dsimp only
                repeat' split
                all_goals first | rfl | simp_all
              rw [key]
            rw [hnext]
            exact e2 F (by omega)

theorem stmtsEnd_last : ∀ {l : List Expr}, (∀ y ∈ l, y.isNil = false) → stmtsEnd l = endPosLast l := by
  intro l
  induction l with
  | nil => intro _; rfl
  | cons x l ih =>
    intro h
    cases l with
    | nil =>
      show (if ([] : List Expr).all (·.isNil) then (if x.isNil then _ else x.endPos) else _) = x.endPos
      rw [h x (by simp)]; rfl
    | cons y l =>
      show (if (y :: l).all (·.isNil) then _ else stmtsEnd (y :: l)) = endPosLast (y :: l)
      rw [if_neg (by simp [h y (by simp)])]
      exact ih (fun z hz => h z (by simp [hz]))

/-- the state at the beginning of a block -/
def nestOpen (st : St) : St := newline { st with margin := st.margin + nestedIndentation, level := st.level + 1 }

theorem nested_again (hft : ft ≠ .module) {l l' : List Expr} {st : St} (h : All2 (RS ft pr) (itemsS ft pr l (nestOpen st)) l') (hn : l ≠ []) (hpl : ∀ s ∈ l, Plain s) :
    SameL l l' ∧ (∀ y ∈ l', y.isNil = false) ∧ (endPosLast l').line = line (nestedStatements ft pr l st) ∧ (nestedStatements ft pr l st).needsNL = true ∧
      (nestedStatements ft pr l st).comment = [] ∧ ∃ N, ∀ F, N ≤ F → nestedStatements ft (expr ft F) l' st = nestedStatements ft pr l st := by
  obtain ⟨h1, h2, h3, h4, h5, N, h6⟩ := stmtLoop_again hft h hn hpl
  have e1 : ∀ (pr : Pr) (l : List Expr), (∀ y ∈ l, y.isNil = false) → nestedStatements ft pr l st = { stmtLoop ft pr l (nestOpen st) with
      margin := (stmtLoop ft pr l (nestOpen st)).margin - nestedIndentation, level := (stmtLoop ft pr l (nestOpen st)).level - 1 } := by
    intro pr l hl
    unfold nestedStatements statements
    rw [all2_filter hl]
    rfl
  have hl : ∀ y ∈ l, y.isNil = false := fun y hy => (hpl y hy).2.2
  rw [e1 pr l hl]
  refine ⟨h1, h2, h3, h4, h5, N, fun F hF => ?_⟩
  rw [e1 _ l' h2, h6 F hF]

/-! ## Kinds of statements -/

theorem r_return {c : Comments} {p x o st} {x' : Expr} {p' : Pos} (hc : Clean st) (hn : x.isNil = false) (hp : p'.line = line st) {s1 : St} (hs1 : s1 = emit b!" " (emit b!"return" st))
    (hx : RQ ft x x' 0 s1 (pr x 0 s1)) : RQ ft (.returnS c p x) (.returnS {} p' x') o st (pr x 0 s1) := by
  have hn' := same_isNil hx.same hn
  refine RQ.of hc (Same.returnS _ _ _ _ _ _ hx.same) rfl hp ?_ ?_ (fun _ m => by cases m <;> rfl) (fun _ h => by cases h) (fun h => by cases h)
  · show (if x'.isNil then _ else x'.endPos).line = _
    rw [hn']; exact hx.stop
  obtain ⟨N, h⟩ := hx.again
  refine ⟨N, fun F hF => ?_⟩
  show (if x'.isNil then _ else expr ft F x' 0 (emit b!" " (emit b!"return" st))) = _
  rw [hn', if_neg (by simp), ← hs1]
  exact h F hF

theorem r_return0 {c : Comments} {p o st} {p' : Pos} (hc : Clean st) (hp : p'.line = line st) :
    RQ ft (.returnS c p .nil) (.returnS {} p' .nil) o st (emit b!"return" st) := by
  refine RQ.of hc (Same.returnS _ _ _ _ _ _ .nil) rfl hp ?_ ⟨0, fun F _ => rfl⟩ (fun _ m => by cases m <;> rfl) (fun _ h => by cases h) (fun h => by cases h)
  show (p'.add b!"return").line = _
  rw [pos_add_line, line_emit, hp]

theorem r_branch {c : Comments} {t p o st} {p' : Pos} (hc : Clean st) (hp : p'.line = line st) :
    RQ ft (.branch c t p) (.branch {} t p') o st (emit t st) := by
  refine RQ.of hc (Same.branch _ _ _ _ _) rfl hp ?_ ⟨0, fun F _ => rfl⟩ (fun _ m => by cases m <;> rfl) (fun _ h => by cases h) (fun h => by cases h)
  show (p'.add t).line = _
  rw [pos_add_line, line_emit, hp]

theorem r_for (hft : ft ≠ .module) {c : Comments} {p v x body o st} {v' x' : Expr} {body' : List Expr} {p' : Pos} (hc : Clean st) (hp : p'.line = line st)
    {s0 s1 s2 : St} (hs0 : s0 = emit b!"for " st) (hv : RQ ft v v' 0 s0 (pr v 0 s0)) (hs1 : s1 = emit b!" in " (pr v 0 s0))
    (hx : RQ ft x x' 0 s1 (pr x 0 s1)) (hs2 : s2 = emit b!":" (pr x 0 s1)) (hn : body ≠ []) (hpl : ∀ s ∈ body, Plain s) (hb : All2 (RS ft pr) (itemsS ft pr body (nestOpen s2)) body') :
    RQ ft (.forS c p v x body) (.forS {} p' v' x' body') o st (nestedStatements ft pr body s2) := by
  obtain ⟨b1, b2, b3, b4, b5, N3, h3⟩ := nested_again hft hb hn hpl
  refine RQ.of hc (Same.forS _ _ _ _ _ _ _ _ _ _ hv.same hx.same b1) rfl hp ?_ ?_ (fun _ m => by cases m <;> rfl) (fun _ h => by cases h) (fun h => by cases h)
  · show (stmtsEnd body').line = _
    rw [stmtsEnd_last b2, b3]
  obtain ⟨N1, h1⟩ := hv.again
  obtain ⟨N2, h2⟩ := hx.again
  refine ⟨N1 + N2 + N3, fun F hF => ?_⟩
  show nestedStatements ft (expr ft F) body' (emit b!":" (expr ft F x' 0 (emit b!" in " (expr ft F v' 0 (emit b!"for " st))))) = _
  rw [← hs0, h1 F (by omega), ← hs1, h2 F (by omega), ← hs2]
  exact h3 F (by omega)

/-! ## Definitions -/

theorem params_again {p p' : Pos} {ps ps' : List Expr} {fc fm fc' fm' : Bool} {st0 st : St} (hc : Clean st) (hst : line st = line st0) (hl : ∀ x ∈ ps, x.isNil = false ∧ x.comments = {})
    (hp : p'.line = line st0) (hI : All2 (RI ft pr) (items ft pr b!"(" p ps none .def_ fc fm st) ps') :
    ∃ N, ∀ F, N ≤ F → seq ft (expr ft F) b!"(" b!")" p' ps' none .def_ fc' fm' st = seq ft pr b!"(" b!")" p ps none .def_ fc fm st := by
  have hlen : ps'.length = ps.length := by
    unfold items at hI; split at hI
    · exact compact_len hI
    · exact multi_len hI
  by_cases hps : ps = []
  · subst hps
    have : ps' = [] := by simpa using hlen
    subst this
    have key : ∀ (pr : Pr) (p : Pos) (fc fm : Bool), seq ft pr b!"(" b!")" p [] none .def_ fc fm st = emit b!")" (emit b!"(" st) := by
      intro pr p fc fm
      rw [seq_parts (by intro x hx; cases hx)]
      split
      · rfl
      · unfold seqMulti seqClose seqOpen seqEnd multiElems emit
        simp
    exact ⟨0, fun F _ => by rw [key, key]⟩
  · have hcom' : ∀ y ∈ ps', y.comments = {} := all2_right hI (fun it _ y h => h.comm)
    have hopen : line (seqOpen .def_ b!"(" st) = line st := by
      show line (emit b!"(" st) = _
      rw [line_emit]; rfl
    refine seq_same (fun x hx => (hl x hx).1) (fun _ => rfl) (fun _ => rfl) (all2_imp hI (fun _ _ h => h.weak)) ?_
    have hz : (p'.line == 0) = false := by rw [hp]; simp [line_pos]
    have hL : useCompact ft (seqOpen .def_ b!"(" st).level p' ps' none .def_ fc' fm' = (match samelines p' false ps' with
        | none => false
        | some (_, new) => if new then !fm' else true) := by
      unfold useCompact
      rw [no_comments hcom', hz]
      simp only [Bool.false_eq_true, if_false, reduceCtorEq, false_and, or_true, ne_eq, not_false_eq_true, and_self, if_true]
      cases samelines p' false ps' <;> rfl
    rw [hL]
    cases hU : useCompact ft (seqOpen .def_ b!"(" st).level p ps none .def_ fc fm with
    | true =>
      unfold items at hI
      rw [if_pos hU] at hI
      obtain ⟨q, hsl, _⟩ := compact_samelines (prev := p') hI (by rw [hp, hopen, hst])
      rw [hsl]; rfl
    | false =>
      unfold items at hI
      rw [if_neg (by rw [hU]; simp)] at hI
      rcases multi_first (show Clean { seqOpen .def_ b!"(" st with margin := (seqOpen .def_ b!"(" st).margin + (if Mode.def_ = .def_ then defIndentation else listIndentation) } from hc) hI with h | ⟨y, l2, h, hy⟩
      · rw [h] at hlen; exact absurd (List.length_eq_zero_iff.1 hlen.symm) hps
      · rw [line_margin, hopen, hst] at hy
        rw [h]
        unfold samelines
        rw [differ (by rw [hp, hy]; omega) (by rw [hy]; omega) (by rw [hp]; exact line_pos _)]; rfl

theorem r_def (hft : ft ≠ .module) {c : Comments} {p name ps body cp fc fm ty o st} {p' cp' : Pos} {ps' body' : List Expr} {fc' fm' : Bool} {ty' : Expr} (hc : Clean st) (hname : Again.nl name = 0)
    (hp : p'.line = line st) (hl : ∀ x ∈ ps, x.isNil = false ∧ x.comments = {})
    {s0 s1 s2 : St} (hs0 : s0 = emit name (emit b!"def " st)) (hI : All2 (RI ft pr) (items ft pr b!"(" p ps none .def_ fc fm s0) ps')
    (hs1 : s1 = seq ft pr b!"(" b!")" p ps none .def_ fc fm s0)
    (hty : (ty = .nil ∧ ty' = .nil ∧ s2 = emit b!":" s1) ∨ (ty.isNil = false ∧ RQ ft ty ty' 0 (emit b!" -> " s1) (pr ty 0 (emit b!" -> " s1)) ∧ s2 = emit b!":" (pr ty 0 (emit b!" -> " s1))))
    (hn : body ≠ []) (hpl : ∀ s ∈ body, Plain s) (hb : All2 (RS ft pr) (itemsS ft pr body (nestOpen s2)) body') :
    RQ ft (.defS c p name ps body cp fc fm ty) (.defS {} p' name ps' body' cp' fc' fm' ty') o st (nestedStatements ft pr body s2) := by
  obtain ⟨b1, b2, b3, b4, b5, N3, h3⟩ := nested_again hft hb hn hpl
  have hst : line s0 = line st := by rw [hs0, line_emit, line_emit, hname]; rfl
  have hc0 : Clean s0 := by rw [hs0]; exact hc
  obtain ⟨N1, h1⟩ := params_again (fc' := fc') (fm' := fm') hc0 hst hl hp hI
  have hts : Same ty ty' := by
    rcases hty with ⟨rfl, rfl, _⟩ | ⟨_, h, _⟩
    · exact .nil
    · exact h.same
  refine RQ.of hc (Same.defS _ _ _ _ _ _ _ _ _ _ _ _ _ _ _ _ _ (items_same hI) b1 hts) rfl hp b3 ?_ (fun _ m => by cases m <;> rfl) (fun _ h => by cases h) (fun h => by cases h)
  have hT : ∃ N, ∀ F, N ≤ F → emit b!":" (if ty'.isNil then s1 else expr ft F ty' 0 (emit b!" -> " s1)) = s2 := by
    rcases hty with ⟨_, rfl, h⟩ | ⟨h1, h2, h3⟩
    · exact ⟨0, fun F _ => h.symm⟩
    · obtain ⟨N, h⟩ := h2.again
      refine ⟨N, fun F hF => ?_⟩
      rw [same_isNil h2.same h1, if_neg (by simp), h F hF, h3]
  obtain ⟨N2, h2⟩ := hT
  refine ⟨N1 + N2 + N3, fun F hF => ?_⟩
  show nestedStatements ft (expr ft F) body' (emit b!":" (if ty'.isNil then seq ft (expr ft F) b!"(" b!")" p' ps' none .def_ fc' fm' (emit name (emit b!"def " st))
    else expr ft F ty' 0 (emit b!" -> " (seq ft (expr ft F) b!"(" b!")" p' ps' none .def_ fc' fm' (emit name (emit b!"def " st)))))) = _
  rw [← hs0, h1 F (by omega), ← hs1, h2 F (by omega)]
  exact h3 F (by omega)

/-! ## Conditionals -/

/-- a branch of an `if` statement -/
structure Br where
  pos : Pos
  cond : Expr
  body : List Expr

/-- the statement with these branches and this last block -/
def chainE (b : Br) : List Br → EndN → List Expr → Expr
  | [], ep, els => .ifS {} b.pos b.cond b.body ep els
  | b2 :: rest, ep, els => .ifS {} b.pos b.cond b.body ⟨{}, b2.pos⟩ [chainE b2 rest ep els]

/-- the branch was read from what is printed for condition and block after the state -/
structure BrR (ft : FileType) (pr : Pr) (co : Expr) (tr : List Expr) (st : St) (b : Br) : Prop where
  cond : RQ ft co b.cond 0 (emit b!"if " st) (pr co 0 (emit b!"if " st))
  ne : tr ≠ []
  plain : ∀ s ∈ tr, Plain s
  body : All2 (RS ft pr) (itemsS ft pr tr (nestOpen (emit b!":" (pr co 0 (emit b!"if " st))))) b.body

/-- what is read for what follows a branch -/
inductive ChR (ft : FileType) (pr : Pr) : List Expr → EndN → List Expr → St → St → List Br → EndN → List Expr → Prop
  | none (tr ep r ep') : ChR ft pr tr ep [] r r [] ep' []
  | els (tr ep fa r s ep' els') : fa ≠ [] → (∀ c p x b e l, fa ≠ [.ifS c p x b e l]) → ep'.comments = {} →
      ep'.pos.line = line (Round.nl (decide (ep.pos.line > (endPosLast tr).line + 1)) r) →
      s = emit b!"else:" (Round.nl (decide (ep.pos.line > (endPosLast tr).line + 1)) r) → (∀ s ∈ fa, Plain s) →
      All2 (RS ft pr) (itemsS ft pr fa (nestOpen s)) els' → ChR ft pr tr ep fa r (nestedStatements ft pr fa s) [] ep' els'
  | next (tr ep p co2 tr2 ep2 fa2 r s R b more ep' els') : b.pos.line = line (Round.nl (decide (ep.pos.line > (endPosLast tr).line + 1)) r) →
      s = emit b!"el" (Round.nl (decide (ep.pos.line > (endPosLast tr).line + 1)) r) → BrR ft pr co2 tr2 s b →
      ChR ft pr tr2 ep2 fa2 (nestedStatements ft pr tr2 (emit b!":" (pr co2 0 (emit b!"if " s)))) R more ep' els' →
      ChR ft pr tr ep [.ifS {} p co2 tr2 ep2 fa2] r R (b :: more) ep' els'

def epT (more : List Br) (ep : EndN) : EndN := match more with | [] => ep | b :: _ => ⟨{}, b.pos⟩
def faT (more : List Br) (ep : EndN) (els : List Expr) : List Expr := match more with | [] => els | b :: more => [chainE b more ep els]

theorem chainE_eq (b : Br) (more : List Br) (ep : EndN) (els : List Expr) : chainE b more ep els = .ifS {} b.pos b.cond b.body (epT more ep) (faT more ep els) := by
  cases more <;> rfl

theorem line_nl {ne : Bool} {r : St} (h1 : r.needsNL = true) (h2 : r.comment = []) : line (Round.nl ne r) = line r + (if ne then 2 else 1) := by
  have e : newlineIfNeeded r = newline r := by unfold newlineIfNeeded; rw [h1]; rfl
  unfold Round.nl
  rw [e]
  cases ne
  · exact line_newline' h2
  · simp only [if_true]
    rw [line_newline' (newline_comment h2), line_newline' h2]

theorem same_ifS {e y : Expr} (h : Same e y) {c p x b ep l} (hy : y = .ifS c p x b ep l) : ∃ c p x b ep l, e = .ifS c p x b ep l := by
  cases h <;> first | exact ⟨_, _, _, _, _, _, rfl⟩ | cases hy

theorem chain_again (hft : ft ≠ .module) {tr : List Expr} {ep : EndN} {fa : List Expr} {r R : St} {more : List Br} {ep' : EndN} {els' : List Expr}
    (h : ChR ft pr tr ep fa r R more ep' els') : ∀ {tr' : List Expr}, (endPosLast tr').line = line r → (∀ y ∈ tr', y.isNil = false) → r.needsNL = true → r.comment = [] →
    SameL fa (faT more ep' els') ∧ (if (faT more ep' els').isEmpty then stmtsEnd tr' else stmtsEnd (faT more ep' els')).line = line R ∧
      ∃ N, ∀ F F', N ≤ F → N ≤ F' → chainRest ft (expr ft F) F' tr' (epT more ep') (faT more ep' els') r = R := by
  induction h with
  | none tr ep r ep' =>
    intro tr' h1 h2 _ _
    refine ⟨.nil, ?_, 0, fun F F' _ _ => rfl⟩
    show (stmtsEnd tr').line = _
    rw [stmtsEnd_last h2, h1]
  | els tr ep fa r s ep' els' hn hif hec hep hs hpl hI =>
    intro tr' h1 h2 h3 h4
    obtain ⟨b1, b2, b3, b4, b5, N, hN⟩ := nested_again hft hI hn hpl
    have hne : els'.isEmpty = false := by rw [sameL_empty b1]; cases fa <;> first | exact absurd rfl hn | rfl
    have hif' : ∀ c p x b e l, els' ≠ [.ifS c p x b e l] := by
      intro c p x b e l h
      rw [h] at b1
      cases b1 with
      | cons y _ l _ q1 q2 =>
        cases q2
        obtain ⟨_, _, _, _, _, _, e⟩ := same_ifS q1 rfl
        exact hif _ _ _ _ _ _ (by rw [e])
    refine ⟨b1, ?_, N, fun F F' hF _ => ?_⟩
    · show (if els'.isEmpty then _ else stmtsEnd els').line = _
      rw [hne, if_neg (by simp), stmtsEnd_last b2, b3]
    · show chainRest ft (expr ft F) F' tr' ep' els' r = _
      rw [chainRest_else hec hif', hne, if_neg (by simp), h1, hep, line_nl h3 h4]
      have : decide (line r + (if decide (ep.pos.line > (endPosLast tr).line + 1) then 2 else 1) > line r + 1) = decide (ep.pos.line > (endPosLast tr).line + 1) := by
        cases decide (ep.pos.line > (endPosLast tr).line + 1) <;> simp
      rw [this, ← hs]
      exact hN F hF
  | next tr ep p co2 tr2 ep2 fa2 r s R b more ep' els' hbp hs hbr hch ih =>
    intro tr' h1 h2 h3 h4
    obtain ⟨b1, b2, b3, b4, b5, N1, hN1⟩ := nested_again hft hbr.body hbr.ne hbr.plain
    obtain ⟨i1, i2, N2, hN2⟩ := ih b3 b2 b4 b5
    obtain ⟨N3, hN3⟩ := hbr.cond.again
    have hbne : b.body ≠ [] := by
      intro h; rw [h] at b1; cases b1; exact hbr.ne rfl
    refine ⟨.cons _ _ _ _ ?_ .nil, ?_, N1 + N2 + N3 + 1, fun F F' hF hF' => ?_⟩
    · rw [chainE_eq]; exact Same.ifS _ _ _ _ _ _ _ _ _ _ _ _ hbr.cond.same b1 i1
    · show (stmtsEnd [chainE b more ep' els']).line = _
      rw [stmtsEnd_last (by intro y hy; rw [List.mem_singleton.1 hy, chainE_eq]; rfl)]
      show (chainE b more ep' els').endPos.line = _
      rw [chainE_eq]
      exact i2
    · cases F' with
      | zero => omega
      | succ F' =>
        have e1 : decide (b.pos.line > (endPosLast tr').line + 1) = decide (ep.pos.line > (endPosLast tr).line + 1) := by
          rw [h1, hbp, line_nl h3 h4]
          cases decide (ep.pos.line > (endPosLast tr).line + 1) <;> simp
        have e2 : chainRest ft (expr ft F) (F' + 1) tr' (epT (b :: more) ep') (faT (b :: more) ep' els') r =
            ifChain ft (expr ft F) (F' + 1) false (decide (b.pos.line > (endPosLast tr').line + 1)) b.cond b.body (epT more ep') (faT more ep' els') r := by
          show chainRest ft (expr ft F) (F' + 1) tr' ⟨{}, b.pos⟩ [chainE b more ep' els'] r = _
          rw [chainE_eq]
          rfl
        rw [e2, e1, ifChain_next hbne, ← hs, hN3 F (by omega), hN1 F (by omega)]
        exact hN2 F F' (by omega) (by omega)

theorem r_if (hft : ft ≠ .module) {p co tr ep fa o st} {R : St} {b : Br} {more : List Br} {ep' : EndN} {els' : List Expr} (hc : Clean st) (hp : b.pos.line = line st) (hb : BrR ft pr co tr st b)
    (h : ChR ft pr tr ep fa (nestedStatements ft pr tr (emit b!":" (pr co 0 (emit b!"if " st)))) R more ep' els') :
    RQ ft (.ifS {} p co tr ep fa) (chainE b more ep' els') o st R := by
  obtain ⟨b1, b2, b3, b4, b5, N1, hN1⟩ := nested_again hft hb.body hb.ne hb.plain
  obtain ⟨i1, i2, N2, hN2⟩ := chain_again hft h b3 b2 b4 b5
  obtain ⟨N3, hN3⟩ := hb.cond.again
  have hbne : b.body ≠ [] := by
    intro h; rw [h] at b1; cases b1; exact hb.ne rfl
  rw [chainE_eq]
  refine RQ.of hc (Same.ifS _ _ _ _ _ _ _ _ _ _ _ _ hb.cond.same b1 i1) rfl hp i2 ?_ (fun _ m => by cases m <;> rfl) (fun _ h => by cases h) (fun h => by cases h)
  refine ⟨N1 + N2 + N3 + 1, fun F hF => ?_⟩
  show ifChain ft (expr ft F) F true false b.cond b.body (epT more ep') (faT more ep' els') st = R
  cases F with
  | zero => omega
  | succ F =>
    rw [ifChain_first hc hbne, hN3 (F + 1) (by omega), hN1 (F + 1) (by omega)]
    exact hN2 (F + 1) F (by omega) (by omega)

end
end Verif.Again
