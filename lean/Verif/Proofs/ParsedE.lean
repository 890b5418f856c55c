import Verif.Proofs.ParsedP
import Verif.Proofs.Deriv
/-
The productions for expressions build trees that satisfy `Ok`.
-/
namespace Verif.Round
open Verif Verif.Syntax Verif.Lexer Verif.Print Verif.Parser Verif.Grammar Verif.Props.Grammar

/-- tokens of kind `k` have the text `x` -/
def isText (k : Kind) (x : Bytes) : Prop :=
  (∀ q ∈ Props.Lexer.fixedTokens, q.1 = k → q.2 = x) ∧ k ≠ K.ident ∧ k ≠ K.int ∧ k ≠ K.string ∧ k ≠ K.comment

instance (k x) : Decidable (isText k x) := by unfold isText; infer_instance

theorem PSym.text {k x ts v} (h : PSym (.t k) ts v) (hx : isText k x) : v.tok = x := by
  obtain ⟨t, rfl, rfl, rfl, hg, _⟩ := h
  exact hx.1 _ (hg.fixed hx.2.1 hx.2.2.1 hx.2.2.2.1 hx.2.2.2.2) rfl

theorem PSym.name {ts v} (h : PSym (.t K.ident) ts v) : Name v.tok := by
  obtain ⟨t, rfl, hk, rfl, hg, _⟩ := h
  exact hg.ident hk

theorem PSym.int {ts v} (h : PSym (.t K.int) ts v) : IntText v.tok := by
  obtain ⟨t, rfl, hk, rfl, hg, _⟩ := h
  exact hg.int hk

theorem PSym.string {ts v} (h : PSym (.t K.string) ts v) : Props.Quote.LexedToken v.tok := by
  obtain ⟨t, rfl, hk, rfl, hg, _⟩ := h
  exact hg.string hk

theorem PSym.colon {ts v} (h : PSym (.t (ch ':')) ts v) : v.pos.byte ≠ 0 := by
  obtain ⟨t, rfl, hk, rfl, _, hp, _⟩ := h
  exact hp.2 hk

theorem primary_cond {e : Expr} (h : isPrimary e = true) : isCond e = false := by
  cases e <;> first | rfl | cases h

theorem primary_test {e : Expr} (hok : Ok e) (h : isPrimary e = true) : PTest 13 false e := by
  refine ⟨hok, fun _ => primary_cond h, fun _ => ?_, fun _ => ?_, ?_, fun _ => ?_⟩ <;> (cases e <;> first | rfl | cases h)

theorem mkBinary_eq {x pos op y} (h : isAssignOp op = false) : mkBinary x pos op y = .binary {} x pos op (decide (x.endPos.line < y.startPos.line)) y := by
  unfold mkBinary
  dsimp only
  rw [h]; rfl

theorem mkAssign_eq {x pos op y} (h : isAssignOp op = true) : mkBinary x pos op y = .assign {} x pos op (decide (x.endPos.line < y.startPos.line)) y := by
  unfold mkBinary
  dsimp only
  rw [h]; rfl

theorem binOp_assign {op : Bytes} (h : op ∈ binOps) : isAssignOp op = false := (by decide : ∀ op ∈ binOps, isAssignOp op = false) op h
theorem binOp_is {op : Bytes} (h : op ∈ binOps) : isOps.contains op = false := (by decide : ∀ op ∈ binOps, isOps.contains op = false) op h

theorem binary_test {p : Nat} {o : Bool} {x y : Expr} {pos : Pos} {op : Bytes} {q : Nat} {b b' : Bool} (hop : op ∈ binOps) (hp : 3 ≤ p) (hp' : p ≠ 13) (hq : 3 ≤ q)
    (h1 : PTest p b x) (h2 : PTest q b' y) : PTest p o (mkBinary x pos op y) := by
  rw [mkBinary_eq (binOp_assign hop)]
  refine ⟨.binary _ _ _ _ _ hop h1.ok (h1.cond hp) h2.ok (h2.cond hq), fun _ => rfl, fun _ => ?_, fun e => absurd e hp', rfl, fun _ => rfl⟩
  show (isOps.contains op && isLambda y) = false
  rw [binOp_is hop]; rfl

/-- `x op y` -/
theorem st_bin {p q r : Nat} {o : Bool} {k : Kind} (op : Bytes) (hk : isText k op) (hop : op ∈ binOps) (hp : 3 ≤ p) (hp' : p ≠ 13) (hq : 3 ≤ q) (hr : r ≠ 0)
    (hs : ∀ v1 v2 v3, sem r [v1, v2, v3] = some { v1 with expr := mkBinary v1.expr v2.pos v2.tok v3.expr }) :
    Step (.test p o, r, [.n (.test p false), .t k, .n (.test q o)]) := by
  refine st3 fun t1 t2 t3 v1 v2 v3 v _ h1 h2 h3 h => ?_
  unfold semF at h
  rw [if_neg hr, hs] at h
  injection h with h
  subst h
  show PTest p o (mkBinary v1.expr v2.pos v2.tok v3.expr)
  rw [h2.text hk]
  exact binary_test hop hp hp' hq h1.1 h3.1

/-- `x not in y` -/
theorem st_notIn {p q : Nat} {o : Bool} (hp : 3 ≤ p) (hp' : p ≠ 13) (hq : 3 ≤ q) :
    Step (.test p o, 108, [.n (.test p false), .t K.not, .t K.in_, .n (.test q o)]) := by
  refine st4 fun t1 t2 t3 t4 v1 v2 v3 v4 v _ h1 h2 h3 h4 h => ?_
  cases h
  exact binary_test (op := b!"not in") (by decide) hp hp' hq h1.1 h4.1

/-- `op x` -/
theorem st_un {r : Nat} {o : Bool} {k : Kind} (op : Bytes) (hk : isText k op) (hop : op ∈ unOps) (hr : r ≠ 0)
    (hs : ∀ v1 v2, sem r [v1, v2] = some { v1 with expr := mkUnary v1.pos v1.tok v2.expr }) :
    Step (.test 13 o, r, [.t k, .n (.test 13 o)]) := by
  refine st2 fun t1 t2 v1 v2 v _ h1 h2 h => ?_
  unfold semF at h
  rw [if_neg hr, hs] at h
  injection h with h
  subst h
  show PTest 13 o (.unary {} v1.pos v1.tok v2.expr)
  rw [h1.text hk]
  have h2 : PTest 13 o v2.expr := h2.1
  refine ⟨.unary _ _ _ hop h2.ok (h2.cond (by decide)), fun _ => rfl, fun _ => rfl, fun _ => rfl, h2.bin rfl, fun ho => ?_⟩
  show isLambda v2.expr = false
  have := h2.op ho
  generalize v2.expr = e at this
  cases e with
  | lambda => cases this
  | _ => rfl

/-- inclusions among tests -/
theorem st_up {p q : Nat} {o : Bool} (h : p ≤ q) (hp : p ≠ 13) : Step (.test p o, 0, [.n (.test q o)]) := by
  refine st1 fun t1 v1 v _ h1 hs => ?_
  cases hs
  have h1 : PTest q o v1.expr := h1.1
  exact ⟨h1.ok, fun h3 => h1.cond (Nat.le_trans h3 h), h1.op, fun e => absurd e hp, h1.inner, h1.innerOpen⟩

theorem st_any {p : Nat} {o : Bool} : Step (.any p, 0, [.n (.test p o)]) := by
  refine st1 fun t1 v1 v _ h1 hs => ?_
  cases hs
  have h1 : PTest p o v1.expr := h1.1
  exact ⟨h1.ok, h1.cond⟩

/-- `t if c else e` -/
theorem st117 {o : Bool} : Step (.test 2 o, 117, [.n (.test 2 false), .t K.if_, .n (.any 2), .t K.else_, .n (.test 3 o)]) := by
  refine st5 fun t1 t2 t3 t4 t5 v1 v2 v3 v4 v5 v _ h1 h2 h3 h4 h5 h => ?_
  cases h
  have h1 : PTest 2 false v1.expr := h1.1
  have h3 : Ok v3.expr ∧ _ := h3.1
  have h5 : PTest 3 o v5.expr := h5.1
  exact ⟨.cond _ _ _ _ _ h1.ok h3.1 h5.ok (h5.cond (by decide)), fun h => absurd h (by decide), fun _ => rfl, fun _ => rfl, rfl, fun _ => rfl⟩

/-- `x is y` -/
theorem st116 {o : Bool} : Step (.test 3 o, 116, [.n (.test 3 false), .t K.is, .n (.test 4 o)]) := by
  refine st3 fun t1 t2 t3 v1 v2 v3 v _ h1 h2 h3 h => ?_
  have h : some { v1 with expr := mkIs v1.expr v2.pos v2.tok v3.expr } = some v := (sem116 v1 v2 v3).symm.trans h
  injection h with h
  subst h
  show PTest 3 o (mkIs v1.expr v2.pos v2.tok v3.expr)
  rw [h2.text (x := b!"is") (by decide)]
  have h1 : PTest 3 false v1.expr := h1.1
  have h3 : PTest 4 o v3.expr := h3.1
  have plain : ∀ y, PTest 4 o y → isNot y = false → PTest 3 o (mkBinary v1.expr v2.pos b!"is" y) := by
    intro y hy hn
    rw [mkBinary_eq (by decide)]
    refine ⟨.is _ _ _ _ h1.ok (h1.cond (by decide)) (h1.op rfl) hy.ok (hy.cond (by decide)) hn, fun _ => rfl, fun ho => ?_, fun e => absurd e (by decide), rfl, fun _ => rfl⟩
    have := hy.op ho
    show (isOps.contains b!"is" && isLambda y) = false
    cases y with
    | lambda => cases this
    | _ => rfl
  generalize v3.expr = y at h3
  unfold mkIs
  cases y with
  | unary c p uop z =>
    dsimp only
    by_cases hn : uop = b!"not"
    · rw [if_pos hn, mkBinary_eq (by decide)]
      have hz : Ok z ∧ isCond z = false := by
        cases h3.ok with
        | unary _ _ _ _ a b => exact ⟨a, b⟩
      refine ⟨.isNot _ _ _ _ h1.ok (h1.cond (by decide)) (h1.op rfl) hz.1 hz.2 h3.inner, fun _ => rfl, fun ho => ?_, fun e => absurd e (by decide), rfl, fun _ => rfl⟩
      show (isOps.contains b!"is not" && isLambda z) = false
      have : isLambda z = false := h3.innerOpen ho
      rw [this]; rfl
    · rw [if_neg hn]
      refine plain _ h3 ?_
      show (uop == b!"not") = false
      simpa using hn
  | _ => exact plain _ h3 rfl

theorem st89 : Step (.test 13 false, 89, [.n .primaryExpr]) := by
  refine st1 fun t1 v1 v _ h1 hs => ?_
  cases hs
  have h1 : Ok v1.expr ∧ isPrimary v1.expr = true := h1.1
  exact primary_test h1.1 h1.2

theorem st90 : Step (.test 13 true, 90, [.t K.lambda, .n .parametersOpt, .t (ch ':'), .n .lambdaBody]) := by
  refine st4 fun t1 t2 t3 t4 v1 v2 v3 v4 v _ h1 h2 h3 h4 h => ?_
  cases h
  exact ⟨.lambda _ _ _ h2.1 h4.1, fun _ => rfl, (fun h => nomatch h), fun _ => rfl, rfl, fun _ => rfl⟩

theorem st85l : Step (.lambdaBody, 85, [.n (.any 2)]) := by
  refine st1 fun t1 v1 v _ h1 hs => ?_
  cases hs; exact h1.1.1

theorem st85 : Step (.expr, 85, [.n (.any 2)]) := by
  refine st1 fun t1 v1 v _ h1 hs => ?_
  cases hs; exact .one _ h1.1.1

theorem tupleAppend_one {x y : Expr} (h : ∀ c s l e fc fm, x ≠ .tuple c true s l e fc fm) : tupleAppend x y = .tuple {} true {} [x, y] {} true false := by
  unfold tupleAppend
  split
  · exact absurd rfl (h _ _ _ _ _ _)
  · rfl

theorem ok_not_bare {x : Expr} (h : Ok x) : ∀ c s l e fc fm, x ≠ .tuple c true s l e fc fm := by
  rintro c s l e fc fm rfl
  cases h

theorem forall_snoc {α} {p : α → Prop} {l : List α} {y : α} (h : ∀ a ∈ l, p a) (hy : p y) : ∀ a ∈ l ++ [y], p a := by
  intro a ha
  rcases List.mem_append.1 ha with ha | ha
  · exact h a ha
  · rw [List.mem_singleton.1 ha]; exact hy

theorem forall_two {α} {p : α → Prop} {x y : α} (h : p x) (hy : p y) : ∀ a ∈ [x, y], p a := forall_snoc (l := [x]) (fun a ha => by rw [List.mem_singleton.1 ha]; exact h) hy

theorem forall_one {α} {p : α → Prop} {x : α} (h : p x) : ∀ a ∈ [x], p a := fun a ha => by rw [List.mem_singleton.1 ha]; exact h

theorem forall_nil {α} {p : α → Prop} : ∀ a ∈ ([] : List α), p a := fun _ ha => nomatch ha

theorem st86 : Step (.expr, 86, [.n .expr, .t (ch ','), .n (.any 3)]) := by
  refine st3 fun t1 t2 t3 v1 v2 v3 v _ h1 h2 h3 h => ?_
  cases h
  have h1 : OkExpr v1.expr := h1.1
  have h3 : Ok v3.expr ∧ (3 ≤ 3 → isCond v3.expr = false) := h3.1
  show OkExpr (tupleAppend v1.expr v3.expr)
  generalize v1.expr = x at h1
  cases h1 with
  | one _ hx =>
    rw [tupleAppend_one (ok_not_bare hx)]
    exact .tuple _ _ _ _ _ _ _ rfl (forall_two hx h3.1) (forall_one (h3.2 (by decide)))
  | tuple s a b l e fc fm he h1 h2 =>
    show OkExpr (.tuple {} true s (a :: b :: (l ++ [v3.expr])) e fc fm)
    exact .tuple _ _ _ _ _ _ _ he (forall_snoc (l := a :: b :: l) h1 h3.1) (forall_snoc (l := b :: l) h2 (h3.2 (by decide)))

theorem st87 : Step (.exprOpt, 87, []) := by
  refine st0 fun v _ hs => ?_
  cases hs; intro h; cases h

theorem st88 : Step (.exprOpt, 88, [.n .expr]) := by
  refine st1 fun t1 v1 v _ h1 hs => ?_
  cases hs; intro _; exact h1.1

theorem st118 : Step (.tests, 118, [.n (.any 2)]) := by
  refine st1 fun t1 v1 v _ h1 hs => ?_
  cases hs; exact ⟨by simp, forall_one h1.1.1⟩

theorem st119 : Step (.tests, 119, [.n .tests, .n .commas, .n (.any 2)]) := by
  refine st3 fun t1 t2 t3 v1 v2 v3 v _ h1 h2 h3 h => ?_
  cases h; exact ⟨by simp, forall_snoc h1.1.2 h3.1.1⟩

theorem st120 : Step (.testOpt, 120, []) := by
  refine st0 fun v _ hs => ?_
  cases hs; intro h; cases h

theorem st121 : Step (.testOpt, 121, [.n (.any 2)]) := by
  refine st1 fun t1 v1 v _ h1 hs => ?_
  cases hs; intro _; exact h1.1.1

theorem st122 : Step (.testsOpt, 122, []) := by
  refine st0 fun v _ hs => ?_
  cases hs; exact forall_nil

theorem st123 : Step (.testsOpt, 123, [.n .tests, .n .commasOpt]) := by
  refine st2 fun t1 t2 v1 v2 v _ h1 h2 hs => ?_
  cases hs; exact h1.1.2

theorem st130 : Step (.keyvalue, 130, [.n (.any 2), .t (ch ':'), .n (.any 2)]) := by
  refine st3 fun t1 t2 t3 v1 v2 v3 v _ h1 h2 h3 h => ?_
  cases h; exact .kv _ _ _ h1.1.1 h3.1.1

theorem st131 : Step (.keyvaluesNoComma, 131, [.n .keyvalue]) := by
  refine st1 fun t1 v1 v _ h1 hs => ?_
  cases hs; exact forall_one h1.1

theorem st132 : Step (.keyvaluesNoComma, 132, [.n .keyvaluesNoComma, .n .commas, .n .keyvalue]) := by
  refine st3 fun t1 t2 t3 v1 v2 v3 v _ h1 h2 h3 h => ?_
  cases h; exact forall_snoc h1.1 h3.1

theorem st133 : Step (.keyvalues, 133, []) := by
  refine st0 fun v _ hs => ?_
  cases hs; exact forall_nil

theorem st134 : Step (.keyvalues, 134, [.n .keyvaluesNoComma]) := by
  refine st1 fun t1 v1 v _ h1 hs => ?_
  cases hs; exact h1.1

theorem st135 : Step (.keyvalues, 135, [.n .keyvaluesNoComma, .n .commas]) := by
  refine st2 fun t1 t2 v1 v2 v _ h1 h2 hs => ?_
  cases hs; exact h1.1

theorem st136 : Step (.loopVars, 136, [.n .primaryExpr]) := by
  refine st1 fun t1 v1 v _ h1 hs => ?_
  cases hs; exact .one _ h1.1.1 h1.1.2

theorem st137 : Step (.loopVars, 137, [.n .loopVars, .t (ch ','), .n .primaryExpr]) := by
  refine st3 fun t1 t2 t3 v1 v2 v3 v _ h1 h2 h3 h => ?_
  cases h
  have h1 : OkVars v1.expr := h1.1
  have h3 : Ok v3.expr ∧ isPrimary v3.expr = true := h3.1
  show OkVars (tupleAppend v1.expr v3.expr)
  generalize v1.expr = x at h1
  cases h1 with
  | one _ hx hp =>
    rw [tupleAppend_one (ok_not_bare hx)]
    exact .tuple _ _ _ _ _ _ _ rfl (forall_two hx h3.1) (forall_two hp h3.2)
  | tuple s a b l e fc fm he h1 h2 =>
    show OkVars (.tuple {} true s (a :: b :: (l ++ [v3.expr])) e fc fm)
    exact .tuple _ _ _ _ _ _ _ he (forall_snoc (l := a :: b :: l) h1 h3.1) (forall_snoc (l := a :: b :: l) h2 h3.2)

theorem st138 : Step (.string, 138, [.t K.string]) := by
  refine st1 fun t1 v1 v _ h1 hs => ?_
  cases hs; exact ⟨_, rfl, rfl, h1.string⟩

theorem st139 : Step (.ident, 139, [.t K.ident]) := by
  refine st1 fun t1 v1 v _ h1 hs => ?_
  cases hs; exact ⟨_, rfl, rfl, h1.name⟩

theorem dot_not_int {c p} {a b : Bytes} : isInt (.literal c p (a ++ b!"." ++ b)) = false := by
  show (!(a ++ b!"." ++ b).contains 46) = false
  simp

theorem st140 : Step (.number, 140, [.t K.int, .t (ch '.'), .t K.int]) := by
  refine st3 fun t1 t2 t3 v1 v2 v3 v _ h1 h2 h3 h => ?_
  cases h; exact ⟨.float _ _ (.both _ _ h1.int h3.int), rfl, dot_not_int⟩

theorem st141 : Step (.number, 141, [.t K.int, .t (ch '.')]) := by
  refine st2 fun t1 t2 v1 v2 v _ h1 h2 hs => ?_
  cases hs
  refine ⟨.float _ _ (.left _ h1.int), rfl, ?_⟩
  show isInt (.literal {} v1.pos (v1.tok ++ b!".")) = false
  have := @dot_not_int {} v1.pos v1.tok []
  simpa using this

theorem st142 : Step (.number, 142, [.t (ch '.'), .t K.int]) := by
  refine st2 fun t1 t2 v1 v2 v _ h1 h2 hs => ?_
  cases hs
  exact ⟨.float _ _ (.right _ h2.int), rfl, rfl⟩

theorem st143 : Step (.numberInt, 143, [.t K.int]) := by
  refine st1 fun t1 v1 v _ h1 hs => ?_
  cases hs; exact ⟨.int _ _ h1.int, rfl⟩

theorem st144 {o : Bool} : Step (.forClause o, 144, [.t K.for_, .n .loopVars, .t K.in_, .n (.test 3 o)]) := by
  refine st4 fun t1 t2 t3 t4 v1 v2 v3 v4 v _ h1 h2 h3 h4 h => ?_
  cases h
  have h4 : PTest 3 o v4.expr := h4.1
  exact ⟨.for_ _ _ _ _ h2.1 h4.ok (h4.cond (by decide)), rfl, h4.op⟩

theorem st145 {o : Bool} : Step (.clauses o, 145, [.n (.forClause o)]) := by
  refine st1 fun t1 v1 v _ h1 hs => ?_
  cases hs
  obtain ⟨h1, h2, h3⟩ := h1.1
  refine ⟨⟨forall_one h1, ?_, rfl⟩, h3⟩
  show forFirst [v1.expr] = true
  generalize v1.expr = e at h2
  cases e <;> first | rfl | cases h2

theorem apart_append : ∀ (l m : List Expr), clausesApart l = true → clausesApart m = true → (openLast l = false ∨ ∀ x r, m = x :: r → isIfClause x = false) →
    clausesApart (l ++ m) = true := by
  intro l
  induction l with
  | nil => intro m _ hm _; exact hm
  | cons x l ih =>
    intro m hl hm ho
    cases l with
    | nil =>
      cases m with
      | nil => rfl
      | cons y m =>
        show (!(openClause x && isIfClause y) && clausesApart (y :: m)) = true
        rw [hm, Bool.and_true]
        rcases ho with ho | ho
        · have : openClause x = false := ho
          rw [this]; rfl
        · rw [ho y m rfl, Bool.and_false]; rfl
    | cons y l =>
      have hl : (!(openClause x && isIfClause y) && clausesApart (y :: l)) = true := hl
      rw [Bool.and_eq_true] at hl
      show (!(openClause x && isIfClause y) && clausesApart ((y :: l) ++ m)) = true
      rw [Bool.and_eq_true]
      exact ⟨hl.1, ih m hl.2 hm ho⟩

theorem openLast_snoc : ∀ (l : List Expr) (x : Expr), openLast (l ++ [x]) = openClause x := by
  intro l x
  induction l with
  | nil => rfl
  | cons y l ih =>
    cases l with
    | nil => rfl
    | cons z l => exact ih

theorem first_append {l m : List Expr} (h : forFirst l = true) : forFirst (l ++ m) = true := by
  cases l with
  | nil => cases h
  | cons x l => cases x <;> first | rfl | cases h

theorem st146 {o : Bool} : Step (.clauses o, 146, [.n (.clauses false), .t K.if_, .n (.test 3 o)]) := by
  refine st3 fun t1 t2 t3 v1 v2 v3 v _ h1 h2 h3 h => ?_
  cases h
  have h3 : PTest 3 o v3.expr := h3.1
  have h1 : PClauses v1.exprs ∧ (false = false → openLast v1.exprs = false) := h1.1
  refine ⟨⟨forall_snoc h1.1.ok (.if_ _ _ h3.ok (h3.cond (by decide))), first_append h1.1.first, apart_append _ _ h1.1.apart rfl (.inl (h1.2 rfl))⟩, fun ho => ?_⟩
  show openLast (v1.exprs ++ [.ifClause {} v2.pos v3.expr]) = false
  rw [openLast_snoc]
  exact h3.op ho

theorem st147 {o : Bool} : Step (.forClausesWithIfClausesOpt, 147, [.n (.clauses o)]) := by
  refine st1 fun t1 v1 v _ h1 hs => ?_
  cases hs
  exact h1.1.1

theorem st148 {o : Bool} : Step (.forClausesWithIfClausesOpt, 148, [.n .forClausesWithIfClausesOpt, .n (.clauses o)]) := by
  refine st2 fun t1 t2 v1 v2 v _ h1 h2 hs => ?_
  cases hs
  have h1 : PClauses v1.exprs := h1.1
  have h2 : PClauses v2.exprs := h2.1.1
  refine ⟨fun a ha => ?_, first_append h1.first, apart_append _ _ h1.apart h2.apart (.inr ?_)⟩
  · rcases List.mem_append.1 ha with ha | ha
    · exact h1.ok a ha
    · exact h2.ok a ha
  · intro x r e
    have e : v2.exprs = x :: r := e
    have := h2.first
    rw [e] at this
    cases x <;> first | rfl | cases this

/-! ## Primary expressions -/

theorem st40 : Step (.primary, 40, [.n .ident]) := by
  refine st1 fun t1 v1 v _ h1 hs => ?_
  cases hs
  obtain ⟨n, e, h1, h2⟩ := h1.1
  show Ok v1.expr ∧ isPrimary v1.expr = true ∧ isInt v1.expr = false
  rw [e]
  exact ⟨.ident _ h1 h2, rfl, rfl⟩

theorem st41 : Step (.primary, 41, [.n .number]) := by
  refine st1 fun t1 v1 v _ h1 hs => ?_
  cases hs; exact h1.1

theorem st41i : Step (.primaryInt, 41, [.n .numberInt]) := by
  refine st1 fun t1 v1 v _ h1 hs => ?_
  cases hs; exact h1.1

theorem st42 : Step (.primary, 42, [.n .string]) := by
  refine st1 fun t1 v1 v _ h1 hs => ?_
  cases hs
  obtain ⟨n, e, h1, h2⟩ := h1.1
  show Ok v1.expr ∧ isPrimary v1.expr = true ∧ isInt v1.expr = false
  rw [e]
  exact ⟨.string _ h1 (.inr h2), rfl, rfl⟩

theorem st43 : Step (.primary, 43, [.n .primary, .t (ch '.'), .t K.ident]) := by
  refine st3 fun t1 t2 t3 v1 v2 v3 v _ h1 h2 h3 h => ?_
  cases h
  obtain ⟨a, b, c⟩ := h1.1
  exact ⟨.dot _ _ _ _ a (primary_cond b) c h3.name, rfl, rfl⟩

theorem st44 : Step (.primary, 44, [.t K.load, .t (ch '('), .n .commasOpt, .n .string, .n .commas, .n .loadArguments, .n .commasOpt, .t (ch ')')]) := by
  refine st8 fun t1 t2 t3 t4 t5 t6 t7 t8 v1 v2 v3 v4 v5 v6 v7 v8 v _ h1 h2 h3 h4 h5 h6 h7 h8 h => ?_
  cases h
  obtain ⟨n, e, hn, hl⟩ := h4.1
  obtain ⟨h6, h6'⟩ := h6.1
  refine ⟨?_, rfl, rfl⟩
  show Ok (.load {} v1.pos (asString v4.expr) (v6.loadargs.map (·.1)) (v6.loadargs.map (·.2)) ⟨{}, v8.pos⟩ _)
  rw [e]
  refine .load _ _ _ _ _ _ rfl hn (.inr hl) (by simpa using h6) (by simp) ?_ ?_ ?_
  · intro m hm
    obtain ⟨q, hq, rfl⟩ := List.mem_map.1 hm
    exact (h6' q hq).1
  · intro m hm
    obtain ⟨q, hq, rfl⟩ := List.mem_map.1 hm
    exact (h6' q hq).2.1
  · intro q hq
    rw [List.zip_map'] at hq
    obtain ⟨q', hq', rfl⟩ := List.mem_map.1 hq
    exact (h6' q' hq').2.2

theorem st45 : Step (.primary, 45, [.n .primaryExpr, .t (ch '('), .n .argumentsOpt, .t (ch ')')]) := by
  refine st4 fun t1 t2 t3 t4 v1 v2 v3 v4 v _ h1 h2 h3 h4 h => ?_
  cases h
  exact ⟨.call _ _ _ _ _ _ rfl h1.1.1 (primary_cond h1.1.2) h3.1, rfl, rfl⟩

theorem st46 : Step (.primary, 46, [.n .primaryExpr, .t (ch '['), .n .expr, .t (ch ']')]) := by
  refine st4 fun t1 t2 t3 t4 v1 v2 v3 v4 v _ h1 h2 h3 h4 h => ?_
  cases h
  exact ⟨.index _ _ _ _ h1.1.1 (primary_cond h1.1.2) h3.1, rfl, rfl⟩

theorem st47 : Step (.primary, 47, [.n .primaryExpr, .t (ch '['), .n .exprOpt, .t (ch ':'), .n .testOpt, .t (ch ']')]) := by
  refine st6 fun t1 t2 t3 t4 t5 t6 v1 v2 v3 v4 v5 v6 v _ h1 h2 h3 h4 h5 h6 h => ?_
  cases h
  exact ⟨.slice _ _ _ _ _ _ _ _ h1.1.1 (primary_cond h1.1.2) h3.1 h5.1 (fun h => nomatch h) (fun _ => rfl), rfl, rfl⟩

theorem st48 : Step (.primary, 48, [.n .primaryExpr, .t (ch '['), .n .exprOpt, .t (ch ':'), .n .testOpt, .t (ch ':'), .n .testOpt, .t (ch ']')]) := by
  refine st8 fun t1 t2 t3 t4 t5 t6 t7 t8 v1 v2 v3 v4 v5 v6 v7 v8 v _ h1 h2 h3 h4 h5 h6 h7 h8 h => ?_
  cases h
  exact ⟨.slice _ _ _ _ _ _ _ _ h1.1.1 (primary_cond h1.1.2) h3.1 h5.1 h7.1 (fun h => absurd h h6.colon), rfl, rfl⟩

theorem st49 : Step (.primary, 49, [.t (ch '['), .n .testsOpt, .t (ch ']')]) := by
  refine st3 fun t1 t2 t3 v1 v2 v3 v _ h1 h2 h3 h => ?_
  cases h
  exact ⟨.list _ _ _ _ rfl h2.1, rfl, rfl⟩

theorem st50 : Step (.primary, 50, [.t (ch '['), .n (.any 2), .n .forClausesWithIfClausesOpt, .t (ch ']')]) := by
  refine st4 fun t1 t2 t3 t4 v1 v2 v3 v4 v _ h1 h2 h3 h4 h => ?_
  cases h
  have h3 : PClauses v3.exprs := h3.1
  exact ⟨.listCompr _ _ _ _ _ rfl h2.1.1 h3.ok h3.first h3.apart, rfl, rfl⟩

theorem st51 : Step (.primary, 51, [.t (ch '{'), .n .keyvalue, .n .forClausesWithIfClausesOpt, .t (ch '}')]) := by
  refine st4 fun t1 t2 t3 t4 v1 v2 v3 v4 v _ h1 h2 h3 h4 h => ?_
  cases h
  have h3 : PClauses v3.exprs := h3.1
  exact ⟨.dictCompr _ _ _ _ _ rfl h2.1 h3.ok h3.first h3.apart, rfl, rfl⟩

theorem st52 : Step (.primary, 52, [.t (ch '{'), .n .keyvalues, .t (ch '}')]) := by
  refine st3 fun t1 t2 t3 v1 v2 v3 v _ h1 h2 h3 h => ?_
  cases h
  exact ⟨.dict _ _ _ _ rfl h2.1, rfl, rfl⟩

theorem st53 : Step (.primary, 53, [.t (ch '{'), .n .tests, .n .commaOpt, .t (ch '}')]) := by
  refine st4 fun t1 t2 t3 t4 v1 v2 v3 v4 v _ h1 h2 h3 h4 h => ?_
  cases h
  exact ⟨.set _ _ _ _ rfl h2.1.1 h2.1.2, rfl, rfl⟩

theorem st54 : Step (.primary, 54, [.t (ch '('), .n .testsOpt, .t (ch ')')]) := by
  refine st3 fun t1 t2 t3 v1 v2 v3 v _ h1 h2 h3 h => ?_
  have h : some { v1 with expr := parenOrTuple v1.pos v2 v3.pos } = some v := (sem54 v1 v2 v3).symm.trans h
  injection h with h
  subst h
  show Ok (parenOrTuple v1.pos v2 v3.pos) ∧ isPrimary (parenOrTuple v1.pos v2 v3.pos) = true ∧ isInt (parenOrTuple v1.pos v2 v3.pos) = false
  have h2 : ∀ a ∈ v2.exprs, Ok a := h2.1
  unfold parenOrTuple
  by_cases hc : v2.exprs.length = 1 ∧ v2.comma.line = 0
  · rw [if_pos hc]
    refine ⟨.paren _ _ _ _ rfl (h2 _ ?_), rfl, rfl⟩
    obtain ⟨x, hx⟩ := List.length_eq_one_iff.1 hc.1
    rw [hx]; simp
  · rw [if_neg hc]
    exact ⟨.tuple _ _ _ _ _ rfl h2, rfl, rfl⟩

theorem st_primary : Step (.primaryExpr, 0, [.n .primary]) := by
  refine st1 fun t1 v1 v _ h1 hs => ?_
  cases hs; exact ⟨h1.1.1, h1.1.2.1⟩

theorem st_primaryInt : Step (.primaryExpr, 0, [.n .primaryInt]) := by
  refine st1 fun t1 v1 v _ h1 hs => ?_
  cases hs; exact h1.1

/-! ## Arguments and parameters -/

theorem st55 : Step (.argumentsOpt, 55, []) := by
  refine st0 fun v _ hs => ?_
  cases hs; exact forall_nil

theorem st56 : Step (.argumentsOpt, 56, [.n .arguments, .n .commasOpt]) := by
  refine st2 fun t1 t2 v1 v2 v _ h1 h2 hs => ?_
  cases hs; exact h1.1

theorem st57 : Step (.arguments, 57, [.n .commasOpt, .n .argument]) := by
  refine st2 fun t1 t2 v1 v2 v _ h1 h2 hs => ?_
  cases hs; exact forall_one h2.1

theorem st58 : Step (.arguments, 58, [.n .arguments, .n .commas, .n .argument]) := by
  refine st3 fun t1 t2 t3 v1 v2 v3 v _ h1 h2 h3 h => ?_
  cases h; exact forall_snoc h1.1 h3.1

theorem st59 : Step (.argument, 59, [.n (.any 2)]) := by
  refine st1 fun t1 v1 v _ h1 hs => ?_
  cases hs; exact .plain _ h1.1.1

theorem st60 : Step (.argument, 60, [.n .ident, .t (ch '='), .n (.any 2)]) := by
  refine st3 fun t1 t2 t3 v1 v2 v3 v _ h1 h2 h3 h => ?_
  cases h
  obtain ⟨n, e, hn, hm⟩ := h1.1
  show OkArg (mkBinary v1.expr v2.pos v2.tok v3.expr)
  rw [h2.text (x := b!"=") (by decide), e, mkAssign_eq (by decide)]
  exact .named _ _ _ _ hn hm h3.1.1

theorem st61 : Step (.argument, 61, [.t (ch '*'), .n (.any 2)]) := by
  refine st2 fun t1 t2 v1 v2 v _ h1 h2 hs => ?_
  cases hs
  show OkArg (.unary {} v1.pos v1.tok v2.expr)
  rw [h1.text (x := b!"*") (by decide)]
  exact .star _ _ h2.1.1

theorem st62 : Step (.argument, 62, [.t K.starStar, .n (.any 2)]) := by
  refine st2 fun t1 t2 v1 v2 v _ h1 h2 hs => ?_
  cases hs
  show OkArg (.unary {} v1.pos v1.tok v2.expr)
  rw [h1.text (x := b!"**") (by decide)]
  exact .starStar _ _ h2.1.1

theorem st63 : Step (.loadArguments, 63, [.n .loadArgument]) := by
  refine st1 fun t1 v1 v _ h1 hs => ?_
  cases hs; exact h1.1

theorem st64 : Step (.loadArguments, 64, [.n .loadArguments, .t (ch ','), .n .loadArgument]) := by
  refine st3 fun t1 t2 t3 v1 v2 v3 v _ h1 h2 h3 h => ?_
  cases h
  refine ⟨?_, fun q hq => ?_⟩
  · have := h1.1.1; simp [this]
  · rcases List.mem_append.1 hq with hq | hq
    · exact h1.1.2 q hq
    · exact h3.1.2 q hq

theorem st65 : Step (.loadArgument, 65, [.n .string]) := by
  refine st1 fun t1 v1 v _ h1 hs => ?_
  cases hs
  exact ⟨by simp, forall_one ⟨rfl, rfl, .inl rfl⟩⟩

theorem st66 : Step (.loadArgument, 66, [.n .ident, .t (ch '='), .n .string]) := by
  refine st3 fun t1 t2 t3 v1 v2 v3 v _ h1 h2 h3 h => ?_
  cases h
  obtain ⟨n, e, hn, hm⟩ := h1.1
  refine ⟨by simp, forall_one ⟨rfl, ?_, .inr ?_⟩⟩
  · show (asIdent v1.expr).comments = {}
    rw [e]; exact hn
  · show Name (asIdent v1.expr).name
    rw [e]; exact hm

theorem st67 : Step (.parametersOpt, 67, []) := by
  refine st0 fun v _ hs => ?_
  cases hs; exact forall_nil

theorem st68 : Step (.parametersOpt, 68, [.n .parameters, .n .commaOpt]) := by
  refine st2 fun t1 t2 v1 v2 v _ h1 h2 hs => ?_
  cases hs; exact h1.1

theorem st69 : Step (.parametersTypeOpt, 69, []) := by
  refine st0 fun v _ hs => ?_
  cases hs; exact forall_nil

theorem st70 : Step (.parametersTypeOpt, 70, [.n .parametersType, .n .commaOpt]) := by
  refine st2 fun t1 t2 v1 v2 v _ h1 h2 hs => ?_
  cases hs; exact h1.1

theorem st71 : Step (.parameters, 71, [.n .parameter]) := by
  refine st1 fun t1 v1 v _ h1 hs => ?_
  cases hs; exact forall_one h1.1

theorem st72 : Step (.parameters, 72, [.n .parameters, .t (ch ','), .n .parameter]) := by
  refine st3 fun t1 t2 t3 v1 v2 v3 v _ h1 h2 h3 h => ?_
  cases h; exact forall_snoc h1.1 h3.1

theorem st73 : Step (.parametersType, 73, [.n .parameterType]) := by
  refine st1 fun t1 v1 v _ h1 hs => ?_
  cases hs; exact forall_one h1.1

theorem st74 : Step (.parametersType, 74, [.n .parametersType, .t (ch ','), .n .parameterType]) := by
  refine st3 fun t1 t2 t3 v1 v2 v3 v _ h1 h2 h3 h => ?_
  cases h; exact forall_snoc h1.1 h3.1

theorem st75 : Step (.parameter, 75, [.n .ident]) := by
  refine st1 fun t1 v1 v _ h1 hs => ?_
  cases hs
  obtain ⟨n, e, hn, hm⟩ := h1.1
  show OkParam false v1.expr
  rw [e]; exact .plain _ _ hn hm

theorem st76 : Step (.parameter, 76, [.n .ident, .t (ch '='), .n (.any 2)]) := by
  refine st3 fun t1 t2 t3 v1 v2 v3 v _ h1 h2 h3 h => ?_
  cases h
  obtain ⟨n, e, hn, hm⟩ := h1.1
  show OkParam false (mkBinary v1.expr v2.pos v2.tok v3.expr)
  rw [h2.text (x := b!"=") (by decide), e, mkAssign_eq (by decide)]
  exact .default _ _ _ _ _ hn hm h3.1.1

theorem st77 : Step (.parameter, 77, [.t (ch '*'), .n .ident]) := by
  refine st2 fun t1 t2 v1 v2 v _ h1 h2 hs => ?_
  cases hs
  obtain ⟨n, e, hn, hm⟩ := h2.1
  show OkParam false (.unary {} v1.pos v1.tok v2.expr)
  rw [h1.text (x := b!"*") (by decide), e]
  exact .star _ _ _ hn hm

theorem st78 : Step (.parameter, 78, [.t (ch '*')]) := by
  refine st1 fun t1 v1 v _ h1 hs => ?_
  cases hs
  show OkParam false (.unary {} v1.pos v1.tok .nil)
  rw [h1.text (x := b!"*") (by decide)]
  exact .bare _ _

theorem st79 : Step (.parameter, 79, [.t K.starStar, .n .ident]) := by
  refine st2 fun t1 t2 v1 v2 v _ h1 h2 hs => ?_
  cases hs
  obtain ⟨n, e, hn, hm⟩ := h2.1
  show OkParam false (.unary {} v1.pos v1.tok v2.expr)
  rw [h1.text (x := b!"**") (by decide), e]
  exact .starStar _ _ _ hn hm

theorem param_mono {e : Expr} (h : OkParam false e) : OkParam true e := by
  cases h with
  | plain _ _ a b => exact .plain _ _ a b
  | default _ _ _ _ _ a b c => exact .default _ _ _ _ _ a b c
  | bare => exact .bare _ _
  | star _ _ _ a b => exact .star _ _ _ a b
  | starStar _ _ _ a b => exact .starStar _ _ _ a b

theorem st80 : Step (.parameterType, 80, [.n .parameter]) := by
  refine st1 fun t1 v1 v _ h1 hs => ?_
  cases hs; exact param_mono h1.1

theorem st81 : Step (.parameterType, 81, [.n .ident, .t (ch ':'), .n (.any 2)]) := by
  refine st3 fun t1 t2 t3 v1 v2 v3 v _ h1 h2 h3 h => ?_
  cases h
  obtain ⟨n, e, hn, hm⟩ := h1.1
  show OkParam true (mkTyped v1.expr v3.expr)
  rw [e]; exact .typed _ _ hn hm h3.1.1

theorem st82 : Step (.parameterType, 82, [.n .ident, .t (ch ':'), .n (.any 2), .t (ch '='), .n (.any 2)]) := by
  refine st5 fun t1 t2 t3 t4 t5 v1 v2 v3 v4 v5 v _ h1 h2 h3 h4 h5 h => ?_
  cases h
  obtain ⟨n, e, hn, hm⟩ := h1.1
  show OkParam true (mkBinary (mkTyped v1.expr v3.expr) v4.pos v4.tok v5.expr)
  rw [h4.text (x := b!"=") (by decide), e, mkAssign_eq (by decide)]
  exact .typedDefault _ _ _ _ _ hn hm h3.1.1 h5.1.1

theorem st83 : Step (.parameterType, 83, [.t (ch '*'), .n .ident, .t (ch ':'), .n (.any 2)]) := by
  refine st4 fun t1 t2 t3 t4 v1 v2 v3 v4 v _ h1 h2 h3 h4 h => ?_
  cases h
  obtain ⟨n, e, hn, hm⟩ := h2.1
  show OkParam true (.unary {} v1.pos v1.tok (mkTyped v2.expr v4.expr))
  rw [h1.text (x := b!"*") (by decide), e]
  exact .typedStar _ _ _ hn hm h4.1.1

theorem st84 : Step (.parameterType, 84, [.t K.starStar, .n .ident, .t (ch ':'), .n (.any 2)]) := by
  refine st4 fun t1 t2 t3 t4 v1 v2 v3 v4 v _ h1 h2 h3 h4 h => ?_
  cases h
  obtain ⟨n, e, hn, hm⟩ := h2.1
  show OkParam true (.unary {} v1.pos v1.tok (mkTyped v2.expr v4.expr))
  rw [h1.text (x := b!"**") (by decide), e]
  exact .typedStarStar _ _ _ hn hm h4.1.1

end Verif.Round
