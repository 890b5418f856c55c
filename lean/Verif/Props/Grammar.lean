import Verif.Proofs.LRCheck
import Verif.Props.Lexer
/-
C60: the parser accepts only sentences of the grammar in parse.y, and the tree it builds is the value of a derivation.
-/
namespace Verif.Props.Grammar
open Verif Verif.Syntax Verif.Lexer Verif.Parser Verif.Grammar Verif.LR

/-! ## Specification -/

mutual
/-- The symbol derives a sequence of token kinds in the grammar of parse.y. -/
inductive Derives : Sym → List Kind → Prop
  | tok (k) : Derives (.t k) [k]
  | prod (a rhs ks) : (a, rhs) ∈ productions → DerivesAll rhs ks → Derives (.n a) ks
inductive DerivesAll : List Sym → List Kind → Prop
  | nil : DerivesAll [] []
  | cons (x xs ks ks') : Derives x ks → DerivesAll xs ks' → DerivesAll (x :: xs) (ks ++ ks')
end

mutual
/-- The same with tokens and semantic values: production number `r` runs the action `sem r`. -/
inductive Deriv : Sym → List Tok → Val → Prop
  | tok (t : Tok) : Deriv (.t t.kind) [t] (Val.ofTok t)
  | prod (r a rhs ts vs v) : productions[r]? = some (a, rhs) → DerivL rhs ts vs → sem (r + 1) vs = some v → Deriv (.n a) ts v
inductive DerivL : List Sym → List Tok → List Val → Prop
  | nil : DerivL [] [] []
  | cons (x xs ts ts' v vs) : Deriv x ts v → DerivL xs ts' vs → DerivL (x :: xs) (ts ++ ts') (v :: vs)
end

theorem derivL_snoc {xs ts vs} (h : DerivL xs ts vs) {x ts' v} (h' : Deriv x ts' v) : DerivL (xs ++ [x]) (ts ++ ts') (vs ++ [v]) := by
  induction xs generalizing ts vs with
  | nil =>
    cases h
    have := DerivL.cons _ _ _ _ _ _ h' DerivL.nil
    simpa using this
  | cons y ys ih =>
    cases h with
    | cons _ _ t1 t2 v1 vs1 h1 h2 =>
      have := DerivL.cons _ _ _ _ _ _ h1 (ih h2)
      simpa using this

/-- forgetting the values -/
theorem deriv_derives : ∀ {x ts v}, Deriv x ts v → Derives x (ts.map (·.kind)) := by
  intro x ts v h
  refine Deriv.rec (motive_1 := fun x ts _ _ => Derives x (ts.map (·.kind))) (motive_2 := fun xs ts _ _ => DerivesAll xs (ts.map (·.kind)))
    ?_ ?_ ?_ ?_ h
  · intro t; exact Derives.tok _
  · intro r a rhs ts vs v hp _ _ ih
    exact Derives.prod a rhs _ (List.mem_of_getElem? hp) ih
  · exact DerivesAll.nil
  · intro x xs ts ts' v vs _ _ h1 h2
    rw [List.map_append]
    exact DerivesAll.cons _ _ _ _ h1 h2

/-! ## Symbols and their numbers -/

def ntTable : List NT := [.file, .commaOpt, .commas, .commasOpt, .argument, .arguments, .argumentsOpt, .parameter, .parameters, .parametersOpt, .parameterType, .parametersType, .parametersTypeOpt, .test, .testOpt, .testsOpt, .primaryExpr, .expr, .exprOpt, .tests, .loopVars, .forClause, .forClauseWithIfClausesOpt, .forClausesWithIfClausesOpt, .ident, .number, .stmts, .stmt, .blockStmt, .ifElseBlock, .ifChain, .elif_, .simpleStmt, .smallStmt, .smallStmtsContinuation, .keyvalue, .keyvalues, .keyvaluesNoComma, .string, .suite, .comments, .loadArgument, .loadArguments, .defHeader, .defHeaderTypeOpt, .file, .linebreaksOpt, .semiOpt]

theorem ntNum_inv (a : NT) : ntTable.getD (ntNum a) .file = a := by cases a <;> rfl

theorem ntNum_inj {a b : NT} (h : ntNum a = ntNum b) : a = b := by
  rw [← ntNum_inv a, ← ntNum_inv b, h]

theorem ntNum_pos (a : NT) : 0 < ntNum a ∧ ntNum a < 64 := by cases a <;> decide

/-- the terminals of the grammar -/
def terminals : List Kind := productions.flatMap (fun p => p.2.filterMap (fun x => match x with | .t k => some k | .n _ => none))

theorem tokNum_big {k : Nat} (h1 : ¬ k < 127) (h2 : ¬ (57344 ≤ k ∧ k < 57344 + 38)) : tokNum k = 3 := by
  unfold tokNum
  have h0 : ¬ k = 0 := by omega
  simp only [h0, h1, h2, if_false, if_true]
  decide

theorem tokNum_lt (k : Nat) : tokNum k < 64 := by
  by_cases h1 : k < 127
  · exact of_decide_eq_true (allBelow_spec (fun k => decide (tokNum k < 64)) 127 (by decide +kernel) k h1)
  · by_cases h2 : 57344 ≤ k ∧ k < 57344 + 38
    · have := allBelow_spec (fun k => decide (tokNum (57344 + k) < 64)) 38 (by decide +kernel) (k - 57344) (by omega)
      rw [show 57344 + (k - 57344) = k by omega] at this
      exact of_decide_eq_true this
    · rw [tokNum_big h1 h2]; decide

theorem tokNum_inj {k k' : Nat} (hk : k' ∈ terminals) (h : tokNum k = tokNum k') : k = k' := by
  have key1 : allBelow (fun k => terminals.all (fun k' => decide (tokNum k = tokNum k' → k = k'))) 127 = true := by decide +kernel
  have key2 : allBelow (fun k => terminals.all (fun k' => decide (tokNum (57344 + k) = tokNum k' → 57344 + k = k'))) 38 = true := by decide +kernel
  have key3 : terminals.all (fun k' => decide (tokNum k' ≠ 3)) = true := by decide +kernel
  by_cases h1 : k < 127
  · exact of_decide_eq_true (List.all_eq_true.1 (allBelow_spec _ 127 key1 k h1) k' hk) h
  · by_cases h2 : 57344 ≤ k ∧ k < 57344 + 38
    · have := List.all_eq_true.1 (allBelow_spec _ 38 key2 (k - 57344) (by omega)) k' hk
      rw [show 57344 + (k - 57344) = k by omega] at this
      exact of_decide_eq_true this h
    · rw [tokNum_big h1 h2] at h
      exact absurd h.symm (of_decide_eq_true (List.all_eq_true.1 key3 k' hk))

/-- `x` is a nonterminal or a terminal of the grammar -/
def Known : Sym → Prop
  | .t k => k ∈ terminals
  | .n _ => True

theorem symNum_inj {x y : Sym} (hy : Known y) (h : symNum x = symNum y) : x = y := by
  cases x with
  | t k => cases y with
    | t k' =>
      simp only [symNum] at h
      rw [tokNum_inj hy (Int.ofNat.inj h)]
    | n b => have := ntNum_pos b; simp only [symNum] at h; omega
  | n a => cases y with
    | t k' => have := ntNum_pos a; simp only [symNum] at h; omega
    | n b => simp only [symNum] at h; rw [ntNum_inj (a := a) (b := b) (by omega)]

theorem known_rhs {r : Nat} {a rhs} (h : productions[r]? = some (a, rhs)) : ∀ x ∈ rhs, Known x := by
  intro x hx
  cases x with
  | n _ => trivial
  | t k =>
    exact List.mem_flatMap.2 ⟨(a, rhs), List.mem_of_getElem? h, List.mem_filterMap.2 ⟨.t k, hx, rfl⟩⟩

/-! ## The stack -/

/-- The stack, top first, with the tokens it stands for. -/
inductive Good : List (Nat × Val) → List Tok → Prop
  | base (v) : Good [(0, v)] []
  | push (s v p w st x ts ts') : Good ((p, w) :: st) ts → edge p s (symNum x) = true → Deriv x ts' v → Good ((s, v) :: (p, w) :: st) (ts ++ ts')

theorem good_lt {s v st ts} (h : Good ((s, v) :: st) ts) : s < 267 := by
  cases h with
  | base => decide
  | push _ _ _ _ _ _ _ _ _ he _ =>
    simp only [edge, Bool.and_eq_true, decide_eq_true_eq] at he
    exact he.1.1

theorem good_zero {v st ts} (h : Good ((0, v) :: st) ts) : ts = [] := by
  cases h with
  | base => rfl
  | push _ _ p _ _ x _ _ _ he _ =>
    simp only [edge, Bool.and_eq_true] at he
    have : preds 0 = [] := by decide
    rw [this] at he
    simp at he

theorem descend_spec (f : Nat → Bool) : ∀ (xs : List Sym) (s : Nat) (v : Val) (st : List (Nat × Val)) (ts : List Tok),
    Good ((s, v) :: st) ts → (∀ x ∈ xs, Known x) → descend f xs s = true →
    ∃ b w st' ts0 ts1, ((s, v) :: st).drop xs.length = (b, w) :: st' ∧ Good ((b, w) :: st') ts0 ∧ ts = ts0 ++ ts1 ∧ f b = true ∧
      DerivL xs.reverse ts1 ((((s, v) :: st).take xs.length).map (·.2)).reverse := by
  intro xs
  induction xs with
  | nil =>
    intro s v st ts hg _ hd
    exact ⟨s, v, st, ts, [], rfl, hg, by simp, hd, DerivL.nil⟩
  | cons x xs ih =>
    intro s v st ts hg hk hd
    simp only [descend, Bool.and_eq_true, decide_eq_true_eq] at hd
    cases hg with
    | base =>
      exfalso
      have h0 : look yyChk 0 = -1000 := by decide
      rw [h0] at hd
      cases x with
      | t k => simp only [symNum] at hd; omega
      | n a => have := ntNum_pos a; simp only [symNum] at hd; omega
    | push _ _ p w st y ts1 ts2 hg he hdv =>
      simp only [edge, Bool.and_eq_true, decide_eq_true_eq] at he
      have hxy : y = x := symNum_inj (hk x (List.mem_cons_self ..)) (by rw [← he.2, hd.1])
      subst hxy
      have hp : descend f xs p = true := List.all_eq_true.1 hd.2 p (by simpa using he.1.2)
      obtain ⟨b, w', st', t0, t1, e1, e2, e3, e4, e5⟩ := ih p w st ts1 hg (fun z hz => hk z (List.mem_cons_of_mem _ hz)) hp
      refine ⟨b, w', st', t0, t1 ++ ts2, e1, e2, by rw [e3, List.append_assoc], e4, ?_⟩
      have := derivL_snoc e5 hdv
      simpa using this

/-- What a step does to a good configuration that has consumed `ts`. -/
def StepSpec (ts : List Tok) (c : Cfg) : Outcome → Prop
  | .next c' => ∃ ts', Good c'.stack ts' ∧ ts' ++ c'.toks = ts ++ c.toks
  | .done v => Deriv (.n .file) ts v
  | .error => True

theorem step_spec (c : Cfg) (ts : List Tok) (h : Good c.stack ts) : StepSpec ts c (step c) := by
  obtain ⟨stk, toks⟩ := c
  unfold step
  cases stk with
  | nil => trivial
  | cons p st =>
    obtain ⟨s, v⟩ := p
    dsimp only at h ⊢
    have hs := good_lt h
    have hla : lookahead toks < 64 := by
      cases toks with
      | nil => decide
      | cons t _ => exact tokNum_lt t.kind
    have hact := allBelow_spec _ 64 (allBelow_spec _ 267 check_act s hs) (lookahead toks) hla
    unfold checkAct at hact
    cases ha : action s (lookahead toks) with
    | accept => trivial
    | err => trivial
    | shift n =>
      rw [ha] at hact
      dsimp only at hact ⊢
      cases toks with
      | nil => trivial
      | cons t toks =>
        refine ⟨ts ++ [t], Good.push _ _ _ _ _ (.t t.kind) _ _ h hact (Deriv.tok t), by simp⟩
    | reduce r =>
      rw [ha] at hact
      dsimp only at hact ⊢
      have hcr : checkReduce s r = true :=
        List.all_eq_true.1 (allBelow_spec _ 267 check_reduce s hs) r (by simpa using hact)
      unfold checkReduce production at hcr
      by_cases hr0 : r = 0
      · rw [if_pos hr0] at hcr; cases hcr
      · rw [if_neg hr0] at hcr
        cases hp : productions[r - 1]? with
        | none => rw [hp] at hcr; cases hcr
        | some q =>
          obtain ⟨a, rhs⟩ := q
          rw [hp] at hcr
          simp only [Bool.and_eq_true, decide_eq_true_eq] at hcr
          obtain ⟨hlen, hd⟩ := hcr
          obtain ⟨b, w, st', ts0, ts1, e1, e2, e3, e4, e5⟩ := descend_spec _ _ s v st ts h (fun x hx => known_rhs hp x (List.mem_reverse.1 hx)) hd
          rw [List.length_reverse] at e1 e5
          rw [List.reverse_reverse] at e5
          rw [hlen]
          cases hsem : sem r (((((s, v) :: st).take rhs.length).map (·.2)).reverse) with
          | none => trivial
          | some v' =>
            dsimp only
            have hdv : Deriv (.n a) ts1 v' := Deriv.prod (r - 1) a rhs ts1 _ v' hp e5 (by rw [show r - 1 + 1 = r by omega]; exact hsem)
            by_cases h1 : r = 1
            · subst h1
              rw [if_pos rfl]
              have : productions[0]? = some (NT.file, [.n .stmts, .t K.eof]) := rfl
              rw [this] at hp
              cases hp
              rw [if_pos rfl, beq_iff_eq] at e4
              subst e4
              rw [e3, good_zero e2]
              exact hdv
            · rw [if_neg h1, e1]
              dsimp only
              rw [if_neg h1] at e4
              exact ⟨ts0 ++ ts1, Good.push _ _ _ _ _ (.n a) _ _ e2 e4 hdv, by rw [e3]⟩

theorem run_spec (n : Nat) : ∀ (c : Cfg) (ts : List Tok) (l : List Expr), Good c.stack ts → run n c = some l →
    ∃ ts1 ts2 v, ts ++ c.toks = ts1 ++ ts2 ∧ Deriv (.n .file) ts1 v ∧ l = v.exprs := by
  induction n with
  | zero => intro c ts l _ h; cases h
  | succ n ih =>
    intro c ts l hg h
    have hs := step_spec c ts hg
    unfold run at h
    cases hstep : step c with
    | error => rw [hstep] at h; cases h
    | done v =>
      rw [hstep] at h hs
      cases h
      exact ⟨ts, c.toks, v, rfl, hs, rfl⟩
    | next c' =>
      rw [hstep] at h hs
      obtain ⟨ts', hg', he⟩ := hs
      obtain ⟨t1, t2, v, e, d, f⟩ := ih c' ts' l hg' h
      exact ⟨t1, t2, v, by rw [← he, e], d, f⟩

theorem deriv_tok {k ts v} (h : Deriv (.t k) ts v) : ∃ t, ts = [t] ∧ t.kind = k ∧ v = Val.ofTok t := by
  generalize hx : Sym.t k = x at h
  cases h with
  | tok t => cases hx; exact ⟨t, rfl, rfl, rfl⟩
  | prod => cases hx

/-- the end-of-file token of the grammar comes last -/
theorem deriv_file_last {ts v} (h : Deriv (.n .file) ts v) : ∃ ts' t, ts = ts' ++ [t] ∧ t.kind = K.eof := by
  cases h with
  | prod r _ rhs _ vs _ hp hl hs =>
    have hr : rhs = [.n .stmts, .t K.eof] := by
      have hm := List.mem_of_getElem? hp
      have key : ∀ q ∈ productions, q.1 = .file → q.2 = [.n .stmts, .t K.eof] := by decide +kernel
      exact key _ hm rfl
    subst hr
    cases hl with
    | cons _ _ t1 t2 v1 v2 h1 h2 =>
      cases h2 with
      | cons _ _ t3 t4 v3 v4 h3 h4 =>
        cases h4
        obtain ⟨t, rfl, hk, _⟩ := deriv_tok h3
        exact ⟨t1, t, by simp, hk⟩

theorem tiled_eof_last {pre text ts cs} (h : Props.Lexer.Tiled pre text ts cs) : ∀ a t b, ts = a ++ t :: b → t.kind = K.eof → b = [] := by
  induction h with
  | eof pre t =>
    intro a t' b hab _
    cases a with
    | nil => cases hab; rfl
    | cons x a => have := (List.cons.inj hab).2; simp at this
  | blank _ _ _ _ _ _ _ ih => exact ih
  | continued _ _ _ _ _ ih => exact ih
  | comment _ _ _ _ _ _ _ _ ih => exact ih
  | tok pre t s ts cs hk _ _ _ ih =>
    intro a t' b hab hk'
    cases a with
    | nil => cases hab; exact absurd hk' hk
    | cons x a => exact ih a t' b (List.cons.inj hab).2 hk'

/-- **C60** If the parser accepts a file then its tokens, as the lexer delivers them, are a sentence of the grammar in parse.y, and the
statements it builds are the value of a derivation of that sentence: the actions ran on the parts the productions name. -/
theorem C60_sound (n : Nat) (data : Bytes) (ts : List Tok) (st : State) (l : List Expr) (ht : tokens data = .ok ts st)
    (h : run n (initCfg ts) = some l) : Derives (.n .file) (ts.map (·.kind)) ∧ ∃ v, Deriv (.n .file) ts v ∧ l = v.exprs := by
  obtain ⟨t1, t2, v, e, d, f⟩ := run_spec n (initCfg ts) [] l (Good.base _) h
  obtain ⟨a, t, e1, e2⟩ := deriv_file_last d
  obtain ⟨cs, htl, _⟩ := Props.Lexer.C48_tiles data ts st ht
  have : t2 = [] := by
    refine tiled_eof_last htl a t t2 ?_ e2
    have : ts = t1 ++ t2 := e
    rw [this, e1]; simp
  subst this
  have e : ts = t1 := by simpa [initCfg] using e
  subst e
  exact ⟨deriv_derives d, v, d, f⟩

/-- some files are accepted, so `C60_sound` is not vacuous -/
example : (match tokens b!"load(':a.bzl', 'b')\ndef f(x, *y):\n  return [a + -b for a in x if a not in y]\n" with
    | .ok ts _ => (run 400 (initCfg ts)).isSome
    | _ => false) = true := by decide +kernel

/-- and others are rejected: by the grammar, no derivation exists for them either -/
example : (match tokens b!"x = = 1\n" with
    | .ok ts _ => (run 400 (initCfg ts)).isSome
    | _ => false) = false := by decide +kernel

end Verif.Props.Grammar
