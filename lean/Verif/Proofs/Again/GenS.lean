import Verif.Proofs.Again.GenE
import Verif.Proofs.Again.ReB
/-
Derivations of statements from tokens with lines.
-/
namespace Verif.Again
open Verif Verif.Syntax Verif.Lexer Verif.Print Verif.Grammar Verif.Parser Verif.Round

/-! ## Comments -/

/-- the end of a line, the begin and the end of a block -/
def NL : LTok := (Round.NL, 0)
def IND : LTok := (Round.IND, 0)
def UNIND : LTok := (Round.UNIND, 0)

/-- no comments -/
def NC (as : List LTok) : Prop := ∀ a ∈ as, a.1.kind ≠ K.comment

theorem NC.app {a b : List LTok} (h1 : NC a) (h2 : NC b) : NC (a ++ b) := by
  intro x hx
  rcases List.mem_append.1 hx with h | h
  · exact h1 x h
  · exact h2 x h

theorem Gen.free {as x R} (h : Gen as x R) (hn : NC as) : Gen as x (fun v => R v ∧ freeV v) := by
  intro ts h1 h2
  obtain ⟨v, d, q⟩ := h ts h1 h2
  refine ⟨v, d, q, free_deriv d (fun t ht => ?_)⟩
  have : absL t ∈ as := by rw [← h1]; exact List.mem_map_of_mem ht
  exact hn _ this

theorem set_same (e : Expr) : e.setComments e.comments = e := by cases e <;> rfl

theorem modLast_id {f : Expr → Expr} : ∀ {l : List Expr}, (∀ x ∈ l, f x = x) → modLast f l = l := by
  intro l
  induction l with
  | nil => intro _; rfl
  | cons x l ih =>
    intro h
    cases l with
    | nil => show [f x] = [x]; rw [h x (by simp)]
    | cons y l => show x :: modLast f (y :: l) = _; rw [ih (fun z hz => h z (by simp [hz]))]

theorem addStmt_plain {v1 v2 : Val} (h1 : ∀ y ∈ v1.exprs, y.comments = {} ∧ isCommentBlock y = false) (h2 : ∀ y ∈ v2.exprs, y.comments = {}) :
    (addStmt v1 v2).exprs = v1.exprs ++ v2.exprs := by
  have key : ∀ y : Expr, y.comments = {} → setAfter [] y = y ∧ setBefore [] y = y := by
    intro y hy
    have : y.setComments {} = y := by rw [← hy]; exact set_same y
    exact ⟨by unfold setAfter; rw [hy]; exact this, by unfold setBefore; rw [hy]; exact this⟩
  unfold addStmt
  split
  · split
    · rfl
    · rename_i x hx
      obtain ⟨hc, hb⟩ := h1 x (List.mem_of_getLast? hx)
      rw [if_neg (by rw [hb]; decide), hc]
      show modLast (setAfter []) v1.exprs ++ modHead (setBefore []) v2.exprs = _
      rw [modLast_id (fun y hy => (key y (h1 y hy).1).1)]
      cases hv : v2.exprs with
      | nil => rfl
      | cons y l => show _ ++ (setBefore [] y :: l) = _; rw [(key y (h2 y (by rw [hv]; simp))).2]
  · rfl

section
variable {ft : FileType} {pr : Pr}

theorem rs_free {l : List It} {ys : List Expr} (h : All2 (RS ft pr) l ys) : ∀ y ∈ ys, y.comments = {} ∧ isCommentBlock y = false :=
  all2_right h (fun _ _ _ h => ⟨h.ri.comm, h.block⟩)

/-! ## Statements -/

/-- a list of statements -/
abbrev StmtsG (ft : FileType) (pr : Pr) (l : List It) (as : List LTok) : Prop := Gen as (.n (.stmts false)) (OL (RS ft pr) l)

theorem g_stmts0 : StmtsG ft pr [] [] := Gen.prod0 Fm.stmtsfalse_9 (by decide) ⟨_, rfl, .nil⟩

/-- the tokens of a statement extend any list of statements -/
def Ext (ft : FileType) (pr : Pr) (ss : List It) (as : List LTok) : Prop := NC as ∧ ∀ l acc, StmtsG ft pr l acc → StmtsG ft pr (l ++ ss) (acc ++ as)

theorem Ext.nil : Ext ft pr [] [] := ⟨(fun _ h => by cases h), fun l acc h => by simpa using h⟩

theorem Ext.app {s1 s2 a1 a2} (h1 : Ext ft pr s1 a1) (h2 : Ext ft pr s2 a2) : Ext ft pr (s1 ++ s2) (a1 ++ a2) :=
  ⟨h1.1.app h2.1, fun l acc h => by rw [← List.append_assoc, ← List.append_assoc]; exact h2.2 _ _ (h1.2 _ _ h)⟩

theorem Ext.stmts {l as} (h : Ext ft pr l as) : StmtsG ft pr l as := h.2 [] [] g_stmts0

theorem nc_nl (n : Nat) : NC (List.replicate n NL) := by
  intro a ha
  rw [List.eq_of_mem_replicate ha]
  decide

theorem stmts_any {as R} (h : Gen as (.n (.stmts false)) R) : Gen as (.n .anyStmts) R := Gen.incl Fm.anyStmts_0 h

theorem gNL : Gen [NL] (.t K.newline) (fun _ => True) := (Gen.tok NL).mono (fun _ _ => trivial)
theorem gIND : Gen [IND] (.t K.indent) (fun _ => True) := (Gen.tok IND).mono (fun _ _ => trivial)
theorem gUNIND : Gen [UNIND] (.t K.unindent) (fun _ => True) := (Gen.tok UNIND).mono (fun _ _ => trivial)

theorem g_nl {l acc} (n : Nat) (h : StmtsG ft pr l acc) : StmtsG ft pr l (acc ++ List.replicate n NL) := by
  induction n with
  | zero => simpa using h
  | succ n ih =>
    rw [List.replicate_succ', ← List.append_assoc]
    exact Gen.prod2 Fm.stmtsfalse_11 (by decide) ih gNL (fun v1 v2 q _ => ⟨_, rfl, q⟩)

theorem Ext.nl {s as} (n : Nat) (h : Ext ft pr s as) : Ext ft pr s (as ++ List.replicate n NL) :=
  ⟨h.1.app (nc_nl n), fun l acc hl => by rw [← List.append_assoc]; exact g_nl n (h.2 l acc hl)⟩

theorem addStmt_rs {l : List It} {it : It} {v1 v2 : Val} {e : Expr} (h1 : OL (RS ft pr) l v1) (h2 : v2.exprs = [e]) (hs : RS ft pr it e) : OL (RS ft pr) (l ++ [it]) (addStmt v1 v2) := by
  show All2 _ _ (addStmt v1 v2).exprs
  rw [addStmt_plain (rs_free h1) (by rw [h2]; intro y hy; rw [List.mem_singleton.1 hy]; exact hs.ri.comm), h2]
  exact All2.snoc h1 hs

/-- a simple statement and its line end -/
theorem ext_simple {it as} (h : Gen as (.n .smallStmt) (OE (RS ft pr it))) (hn : NC as) (n : Nat) : Ext ft pr [it] (as ++ List.replicate (n + 1) NL) := by
  have h1 : Gen (as ++ [NL]) (.n .simpleStmt) (fun v => ∃ e, v.exprs = [e] ∧ RS ft pr it e) := by
    have := Gen.prod4 (R := fun v => ∃ e, v.exprs = [e] ∧ RS ft pr it e) Fm.simpleStmt_27 (by decide) h
      (Gen.prod0 (R := fun v => v.exprs = []) Fm.smallStmtsContinuation_28 (by decide) ⟨_, rfl, rfl⟩)
      (Gen.prod0 (R := fun _ => True) Fm.semiOpt_38 (by decide) ⟨_, rfl, trivial⟩) gNL
      (fun v1 v2 v3 v4 q1 q2 _ _ => ⟨_, rfl, v1.expr, by show v1.expr :: v2.exprs = _; rw [q2], q1⟩)
    exact this
  have h2 : Gen (as ++ [NL]) (.n (.stmt false)) (fun v => ∃ e, v.exprs = [e] ∧ RS ft pr it e) :=
    Gen.prod1 Fm.stmtfalse_13 (by decide) h1 (fun v q => ⟨_, rfl, q⟩)
  have h3 : Ext ft pr [it] (as ++ [NL]) := by
    refine ⟨hn.app (nc_nl 1), fun l acc hl => ?_⟩
    exact Gen.prod2 Fm.stmtsfalse_10 (by decide) (stmts_any hl) h2 (fun v1 v2 q1 ⟨e, q2, q3⟩ => ⟨_, rfl, addStmt_rs q1 q2 q3⟩)
  have h4 := h3.nl n
  rw [List.append_assoc] at h4
  exact h4

/-- a statement with a block -/
theorem ext_block {it as} (h : Gen as (.n (.blockStmt false)) (OE (RS ft pr it))) (hn : NC as) : Ext ft pr [it] as := by
  refine ⟨hn, fun l acc hl => ?_⟩
  have h2 : Gen as (.n (.stmt false)) (fun v => ∃ e, v.exprs = [e] ∧ RS ft pr it e) := by
    refine Gen.prod1 Fm.stmtfalse_14 (by decide) (h.free hn) (fun v q => ?_)
    refine ⟨{ v with exprs := [v.expr], last := true || v.last }, ?_, v.expr, rfl, q.1⟩
    show (let (s, cbs) := extractTrailing (chainLength v.expr) v.expr
      some { v with exprs := s :: cbs, last := cbs.isEmpty || v.last }) = _
    rw [extractTrailing_free _ _ q.2.1]
    rfl
  exact Gen.prod2 Fm.stmtsfalse_10 (by decide) (stmts_any hl) h2 (fun v1 v2 q1 ⟨e, q2, q3⟩ => ⟨_, rfl, addStmt_rs q1 q2 q3⟩)

/-- an indented block -/
theorem g_suite {l as} (h : StmtsG ft pr l as) : Gen (NL :: IND :: (as ++ [UNIND])) (.n (.suite false)) (OL (RS ft pr) l) := by
  have := Gen.prod5 (R := OL (RS ft pr) l) Fm.suitefalse_2 (by decide) gNL (Gen.prod0 (R := fun v => v.exprs = []) Fm.comments_6 (by decide) ⟨_, rfl, rfl⟩)
    gIND (stmts_any h) gUNIND
    (fun v1 v2 v3 v4 v5 _ q2 _ q4 _ => ⟨{ v1 with exprs := v4.exprs, last := v4.last }, by
      show mkSuite v1 v2 v4 = _
      unfold mkSuite
      rw [q2]; rfl, q4⟩)
  exact this

theorem nc_suite {as : List LTok} (h : NC as) : NC (NL :: IND :: (as ++ [UNIND])) := by
  intro a ha
  simp only [List.mem_cons, List.mem_append, List.not_mem_nil, or_false] at ha
  rcases ha with rfl | rfl | ha | rfl
  · decide
  · decide
  · exact h a ha
  · decide

end

section
variable {ft : FileType} {pr : Pr} {R R1 R2 : Expr → Prop} {ln : Nat}

theorem g_for {l : List It} {as1 as2 as3} {l2 l3 : Nat} (h1 : Gen as1 (.n .loopVars) (OE R1)) (h2 : Gen as2 (.n .expr) (OE R2)) (h3 : StmtsG ft pr l as3)
    (hR : ∀ (p : Pos) v' x' body', p.line = ln → R1 v' → R2 x' → All2 (RS ft pr) l body' → R (.forS {} p v' x' body')) :
    Gen (W ln K.for_ b!"for" :: (as1 ++ (W l2 K.in_ b!"in" :: (as2 ++ (W l3 58 b!":" :: (NL :: IND :: (as3 ++ [UNIND]))))))) (.n (.blockStmt false)) (OE R) :=
  Gen.prod6 (R := OE R) Fm.blockStmtfalse_19 (by decide) (gtok ln K.for_ b!"for") h1 (gtok l2 K.in_ b!"in") h2 (gtok l3 58 b!":") (g_suite h3)
    (fun v1 v2 v3 v4 v5 v6 q1 q2 _ q4 _ q6 => ⟨_, rfl, hR _ _ _ _ (q1.at (by decide)) q2 q4 q6⟩)

/-! ## Definitions -/

/-- a function header -/
def SDef (ln : Nat) (name : Bytes) (ρ : It → Expr → Prop) (ps : List It) (R : Expr → Prop) (v : Val) : Prop :=
  ∃ p ps' b cp fc fm ty', v.expr = .defS {} p name ps' b cp fc fm ty' ∧ p.line = ln ∧ All2 ρ ps ps' ∧ R ty'

theorem g_params {ρ : It → Expr → Prop} {m l as} (h : SeqA (fun x as => Gen as (.n .parameterType) (OE (ρ x))) m l as) (hm : m = .def_) : Gen as (.n .parametersTypeOpt) (OL ρ l) := by
  obtain ⟨ass, tc, h1, rfl, h2, h3, h4⟩ := h
  obtain rfl := h3 (.inr hm)
  by_cases hl : l = []
  · subst hl
    cases h1
    exact Gen.prod0 Fm.parametersTypeOpt_69 (by decide) ⟨_, rfl, .nil⟩
  · have := Gen.prod2 (R := OL ρ l) Fm.parametersTypeOpt_70 (by decide) (l_paramsT.join h1 hl) (g_commaOpt false) (fun v1 v2 q _ => ⟨_, rfl, q⟩)
    exact this

theorem g_header {ρ : It → Expr → Prop} {name l as} {l2 l3 l4 : Nat} (h : SeqA (fun x as => Gen as (.n .parameterType) (OE (ρ x))) .def_ l as) :
    Gen (W ln K.def_ b!"def" :: (W l2 K.ident name :: (W l3 40 b!"(" :: (as ++ [W l4 41 b!")"])))) (.n .defHeader) (SDef ln name ρ l (· = .nil)) :=
  Gen.prod5 (R := SDef ln name ρ l (· = .nil)) Fm.defHeader_15 (by decide) (gtok ln K.def_ b!"def") (gtok l2 K.ident name) (gtok l3 40 b!"(") (g_params h rfl) (gtok l4 41 b!")")
    (fun v1 v2 v3 v4 v5 q1 q2 _ q4 _ => by
      have e : v2.tok = name := q2.tok
      subst e
      exact ⟨_, rfl, _, _, _, _, _, _, _, rfl, q1.at (by decide), q4, rfl⟩)

theorem g_headerType0 {ρ : It → Expr → Prop} {name l as} (h : Gen as (.n .defHeader) (SDef ln name ρ l (· = .nil))) : Gen as (.n .defHeaderTypeOpt) (SDef ln name ρ l (· = .nil)) :=
  Gen.prod1 Fm.defHeaderTypeOpt_16 (by decide) h (fun v q => ⟨_, rfl, q⟩)

theorem g_headerType1 {ρ : It → Expr → Prop} {name l as as2} {l2 : Nat} (h : Gen as (.n .defHeader) (SDef ln name ρ l (· = .nil))) (h2 : Gen as2 (.n (.any 2)) (OE R1)) :
    Gen (as ++ (W l2 K.arrow b!"->" :: as2)) (.n .defHeaderTypeOpt) (SDef ln name ρ l R1) :=
  Gen.prod3 (R := SDef ln name ρ l R1) Fm.defHeaderTypeOpt_17 (by decide) h (gtok l2 K.arrow b!"->") h2
    (fun v1 v2 v3 q1 _ q3 => by
      obtain ⟨p, ps', b, cp, fc, fm, ty', e, h1, h2, _⟩ := q1
      refine ⟨{ v1 with expr := .defS {} p name ps' b cp fc fm v3.expr }, ?_, _, _, _, _, _, _, _, rfl, h1, h2, q3⟩
      show (match v1.expr with
        | .defS c sp n ps b cp fc fm _ => some { v1 with expr := .defS c sp n ps b cp fc fm v3.expr }
        | _ => none) = _
      rw [e])

theorem g_def {ρ : It → Expr → Prop} {name l l2 as as2} {l3 : Nat} (h : Gen as (.n .defHeaderTypeOpt) (SDef ln name ρ l R1)) (h2 : StmtsG ft pr l2 as2)
    (hR : ∀ (p cp : Pos) ps' body' fc fm ty', p.line = ln → All2 ρ l ps' → R1 ty' → All2 (RS ft pr) l2 body' → R (.defS {} p name ps' body' cp fc fm ty')) :
    Gen (as ++ (W l3 58 b!":" :: (NL :: IND :: (as2 ++ [UNIND])))) (.n (.blockStmt false)) (OE R) :=
  Gen.prod3 (R := OE R) Fm.blockStmtfalse_18 (by decide) h (gtok l3 58 b!":") (g_suite h2)
    (fun v1 v2 v3 q1 _ q3 => by
      obtain ⟨p, ps', b, cp, fc, fm, ty', e, h1, h2, h3⟩ := q1
      refine ⟨{ v1 with expr := .defS {} p name ps' v3.exprs v2.pos fc fm ty', last := v3.last }, ?_, hR _ _ _ _ _ _ _ h1 h2 h3 q3⟩
      show (match v1.expr with
        | .defS c sp n ps _ _ fc fm t => some { v1 with expr := .defS c sp n ps v3.exprs v2.pos fc fm t, last := v3.last }
        | _ => none) = _
      rw [e])

/-! ## Chains of `if` and `elif` -/

theorem chain_snoc (b : Br) : ∀ (bs : List Br) (b' : Br) (ep : EndN) (els : List Expr), chainE b bs ⟨{}, b'.pos⟩ [chainE b' [] ep els] = chainE b (bs ++ [b']) ep els := by
  intro bs
  induction bs generalizing b with
  | nil => intro b' ep els; rfl
  | cons b2 bs ih => intro b' ep els; show Expr.ifS _ _ _ _ _ [chainE b2 bs _ _] = _; rw [ih]; rfl

theorem chain_setElse (b : Br) : ∀ (bs : List Br) (ep : EndN) (p : Pos) (new : List Expr),
    setElse (chainLength (chainE b bs ep [])) p new (chainE b bs ep []) = some (chainE b bs ⟨{}, p⟩ new) := by
  intro bs
  induction bs generalizing b with
  | nil => intro ep p new; rfl
  | cons b2 bs ih =>
    intro ep p new
    show (setElse (chainLength (chainE b2 bs ep [])) p new (chainE b2 bs ep [])).map _ = _
    rw [ih]; rfl

/-- a chain read so far; the branches satisfy `P` -/
def CV (P : Br → List Br → Prop) (v : Val) : Prop := ∃ b bs, v.expr = chainE b bs {} [] ∧ P b bs

theorem chain_any {as R} (h : Gen as (.n (.ifChain false)) R) : Gen as (.n .anyIfChain) R := Gen.incl Fm.anyIfChain_0 h

theorem g_if {P : Br → List Br → Prop} {l : List It} {as1 as2} {l2 : Nat} (h1 : Gen as1 (.n .expr) (OE R1)) (h2 : StmtsG ft pr l as2)
    (hP : ∀ (p : Pos) x' t', p.line = ln → R1 x' → All2 (RS ft pr) l t' → P ⟨p, x', t'⟩ []) :
    Gen (W ln K.if_ b!"if" :: (as1 ++ (W l2 58 b!":" :: (NL :: IND :: (as2 ++ [UNIND]))))) (.n (.ifChain false)) (CV P) :=
  Gen.prod4 (R := CV P) Fm.ifChainfalse_21 (by decide) (gtok ln K.if_ b!"if") h1 (gtok l2 58 b!":") (g_suite h2)
    (fun v1 v2 v3 v4 q1 q2 _ q4 => ⟨_, rfl, ⟨v1.pos, v2.expr, v4.exprs⟩, [], rfl, hP _ _ _ (q1.at (by decide)) q2 q4⟩)

theorem g_elif {P P' : Br → List Br → Prop} {l : List It} {as as1 as2} {l2 : Nat} (h : Gen as (.n (.ifChain false)) (CV P)) (h1 : Gen as1 (.n .expr) (OE R1)) (h2 : StmtsG ft pr l as2)
    (hP : ∀ b bs (p : Pos) x' t', P b bs → p.line = ln → R1 x' → All2 (RS ft pr) l t' → P' b (bs ++ [⟨p, x', t'⟩])) :
    Gen (as ++ (W ln K.elif b!"elif" :: (as1 ++ (W l2 58 b!":" :: (NL :: IND :: (as2 ++ [UNIND])))))) (.n (.ifChain false)) (CV P') :=
  Gen.prod5 (R := CV P') Fm.ifChainfalse_22 (by decide) (chain_any h)
    (Gen.prod1 (R := TV (W ln K.elif b!"elif")) Fm.elif_26 (by decide) (gtok ln K.elif b!"elif") (fun v q => ⟨_, rfl, q⟩)) h1 (gtok l2 58 b!":") (g_suite h2)
    (fun v1 v2 v3 v4 v5 q1 q2 q3 _ q5 => by
      obtain ⟨b, bs, e, hb⟩ := q1
      refine ⟨{ v1 with expr := chainE b (bs ++ [⟨v2.pos, v3.expr, v5.exprs⟩]) {} [], last := v5.last }, ?_, b, _, rfl, hP _ _ _ _ _ hb (q2.at (by decide)) q3 q5⟩
      show (setElse (chainLength v1.expr) v2.pos [.ifS {} v2.pos v3.expr v5.exprs {} []] v1.expr).map _ = _
      rw [e, chain_setElse]
      show some _ = some _
      rw [← chain_snoc]; rfl)

theorem g_noElse {P : Br → List Br → Prop} {as} (h : Gen as (.n (.ifChain false)) (CV P)) (hs : ∀ b bs, P b bs → R (chainE b bs {} [])) : Gen as (.n (.blockStmt false)) (OE R) :=
  Gen.prod1 Fm.blockStmtfalse_20 (by decide) (Gen.prod1 (R := OE R) Fm.ifElseBlockfalse_23 (by decide) h (fun v ⟨b, bs, e, q⟩ => ⟨_, rfl, by show R v.expr; rw [e]; exact hs b bs q⟩)) (fun v q => ⟨_, rfl, q⟩)

theorem g_else {P : Br → List Br → Prop} {l : List It} {as as2} {l2 : Nat} (h : Gen as (.n (.ifChain false)) (CV P)) (h2 : StmtsG ft pr l as2)
    (hs : ∀ b bs (p : Pos) els', P b bs → p.line = ln → All2 (RS ft pr) l els' → R (chainE b bs ⟨{}, p⟩ els')) :
    Gen (as ++ (W ln K.else_ b!"else" :: (W l2 58 b!":" :: (NL :: IND :: (as2 ++ [UNIND]))))) (.n (.blockStmt false)) (OE R) :=
  Gen.prod1 Fm.blockStmtfalse_20 (by decide) (Gen.prod4 (R := OE R) Fm.ifElseBlockfalse_24 (by decide) (chain_any h) (gtok ln K.else_ b!"else") (gtok l2 58 b!":") (g_suite h2)
    (fun v1 v2 v3 v4 q1 q2 _ q4 => by
      obtain ⟨b, bs, e, hb⟩ := q1
      refine ⟨{ v1 with expr := chainE b bs ⟨{}, v2.pos⟩ v4.exprs, last := v4.last }, ?_, hs _ _ _ _ hb (q2.at (by decide)) q4⟩
      show (setElse (chainLength v1.expr) v2.pos v4.exprs v1.expr).map _ = _
      rw [e, chain_setElse]; rfl)) (fun v q => ⟨_, rfl, q⟩)

/-! ## Small statements -/

theorem g_smallExpr {as} (h : Gen as (.n .expr) (OE R)) : Gen as (.n .smallStmt) (OE R) := Gen.prod1 Fm.smallStmt_30 (by decide) h (fun v q => ⟨v, rfl, q⟩)

theorem g_assignStmt {op as1 as2} (hop : op ∈ assignOps) (hx : Gen as1 (.n .expr) (OE R1)) (hy : Gen as2 (.n .expr) (OE R2)) (hR : AsgR op R1 R2 R) :
    Gen (as1 ++ (opToks ln op ++ as2)) (.n .smallStmt) (OE R) := by
  have key : ∀ (k : Kind) (r : Nat) (_ : (FNT.smallStmt, r, [FSym.n .expr, FSym.t k, FSym.n .expr]) ∈ fine) (_ : r ≠ 0)
      (_ : ∀ v1 v2 v3, sem r [v1, v2, v3] = some { v1 with expr := mkBinary v1.expr v2.pos v2.tok v3.expr }) (_ : isAssignOp op = true),
      Gen (as1 ++ ([W ln k op] ++ as2)) (.n .smallStmt) (OE R) := by
    intro k r hm hr hs ha
    refine Gen.prod3 hm hr hx (gtok ln k op) hy (fun v1 v2 v3 q1 q2 q3 => ⟨_, hs v1 v2 v3, ?_⟩)
    show R (mkBinary v1.expr v2.pos v2.tok v3.expr)
    rw [show v2.tok = op from q2.tok]
    unfold mkBinary
    rw [if_pos ha]
    exact hR _ _ _ q1 q3
  simp only [assignOps, List.mem_cons, List.not_mem_nil, or_false] at hop
  rcases hop with rfl | hop
  · exact key _ 33 Fm.smallStmt_33 (by decide) (fun _ _ _ => rfl) (by decide)
  · rcases hop with rfl | rfl | rfl | rfl | rfl | rfl | rfl <;> exact key _ 34 Fm.smallStmt_34 (by decide) (fun _ _ _ => rfl) (by decide)

theorem g_augStmt {op as1 as2} (hop : op ∈ augOps) (hx : Gen as1 (.n .expr) (OE R1)) (hy : Gen as2 (.n .expr) (OE R2)) (hR : BinR op R1 R2 R) :
    Gen (as1 ++ (opToks ln op ++ as2)) (.n .smallStmt) (OE R) := by
  have key : ∀ (_ : isAssignOp op = false), Gen (as1 ++ ([W ln K.augm op] ++ as2)) (.n .smallStmt) (OE R) := by
    intro ha
    refine Gen.prod3 Fm.smallStmt_34 (by decide) hx (gtok ln K.augm op) hy (fun v1 v2 v3 q1 q2 q3 => ⟨_, rfl, ?_⟩)
    show R (mkBinary v1.expr v2.pos v2.tok v3.expr)
    rw [show v2.tok = op from q2.tok]
    unfold mkBinary
    rw [if_neg (by rw [ha]; decide)]
    exact hR _ _ _ q1 q3
  simp only [augOps, List.mem_cons, List.not_mem_nil, or_false] at hop
  rcases hop with rfl | rfl | rfl | rfl <;> exact key (by decide)

theorem g_return0 (hR : ∀ p : Pos, p.line = ln → R (.returnS {} p .nil)) : Gen [W ln K.return_ b!"return"] (.n .smallStmt) (OE R) :=
  Gen.prod1 Fm.smallStmt_32 (by decide) (gtok ln K.return_ b!"return") (fun v q => ⟨_, rfl, hR _ (q.at (by decide))⟩)

theorem g_return1 {as} (h : Gen as (.n .expr) (OE R1)) (hR : ∀ (p : Pos) x', p.line = ln → R1 x' → R (.returnS {} p x')) :
    Gen (W ln K.return_ b!"return" :: as) (.n .smallStmt) (OE R) :=
  Gen.prod2 Fm.smallStmt_31 (by decide) (gtok ln K.return_ b!"return") h (fun v w q1 q => ⟨_, rfl, hR _ _ (q1.at (by decide)) q⟩)

theorem g_branch {t : Bytes} (ht : t ∈ [b!"pass", b!"break", b!"continue"]) (hR : ∀ p : Pos, p.line = ln → R (.branch {} t p)) : Gen [W ln (identKind t) t] (.n .smallStmt) (OE R) := by
  have key : ∀ (k : Kind) (r : Nat) (_ : loose k = false) (_ : (FNT.smallStmt, r, [FSym.t k]) ∈ fine) (_ : r ≠ 0) (_ : ∀ v1, sem r [v1] = some { v1 with expr := .branch {} v1.tok v1.pos }),
      Gen [W ln k t] (.n .smallStmt) (OE R) := by
    intro k r hk hm hr hs
    refine Gen.prod1 hm hr (gtok ln k t) (fun v1 q => ⟨_, hs v1, ?_⟩)
    show R (.branch {} v1.tok v1.pos)
    rw [show v1.tok = t from q.tok]
    exact hR _ (q.at hk)
  simp only [List.mem_cons, List.not_mem_nil, or_false] at ht
  rcases ht with rfl | rfl | rfl
  · exact key _ 35 (by decide) Fm.smallStmt_35 (by decide) (fun _ => rfl)
  · exact key _ 36 (by decide) Fm.smallStmt_36 (by decide) (fun _ => rfl)
  · exact key _ 37 (by decide) Fm.smallStmt_37 (by decide) (fun _ => rfl)

end
end Verif.Again
