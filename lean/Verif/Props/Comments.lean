import Verif.Model.Comments
import Verif.Proofs.Deriv
/-
C46: every comment of a source file ends up in the syntax tree, exactly once.
-/
set_option linter.unusedSimpArgs false
namespace Verif.Props.Comments
open Verif Verif.Syntax Verif.Lexer Verif.Comm

/-! ## Specification: all comments in a tree -/

/-- the comments of one node -/
def comC (c : Comments) : List Comment := c.before ++ c.suffix ++ c.after

/-- the comments of identifiers -/
def comI : List IdentN → List Comment
  | [] => []
  | n :: l => comC n.comments ++ comI l

mutual
/-- all comments attached to a node, its closing brackets and everything below it -/
def comE : Expr → List Comment
  | .nil => []
  | .commentBlock c _ => comC c
  | .ident n => comC n.comments
  | .typedIdent c i t => comC c ++ comC i.comments ++ comE t
  | .branch c _ _ => comC c
  | .literal c _ _ => comC c
  | .string n => comC n.comments
  | .call c x _ xs e _ _ => comC c ++ comE x ++ comL xs ++ comC e.comments
  | .dot c x _ _ _ => comC c ++ comE x
  | .compr c _ _ b cl _ e => comC c ++ comE b ++ comL cl ++ comC e.comments
  | .forClause c _ v _ x => comC c ++ comE v ++ comE x
  | .ifClause c _ x => comC c ++ comE x
  | .keyValue c k _ v => comC c ++ comE k ++ comE v
  | .dict c _ xs e _ => comC c ++ comL xs ++ comC e.comments
  | .list c _ xs e _ => comC c ++ comL xs ++ comC e.comments
  | .set c _ xs e _ => comC c ++ comL xs ++ comC e.comments
  | .tuple c _ _ xs e _ _ => comC c ++ comL xs ++ comC e.comments
  | .unary c _ _ x => comC c ++ comE x
  | .binary c x _ _ _ y => comC c ++ comE x ++ comE y
  | .assign c x _ _ _ y => comC c ++ comE x ++ comE y
  | .paren c _ x e _ => comC c ++ comE x ++ comC e.comments
  | .slice c x _ f _ t _ st _ => comC c ++ comE x ++ comE f ++ comE t ++ comE st
  | .index c x _ y _ => comC c ++ comE x ++ comE y
  | .lambda c _ ps b => comC c ++ comL ps ++ comL b
  | .cond c t _ te _ e => comC c ++ comE t ++ comE te ++ comE e
  | .load c _ m fs ts r _ => comC c ++ comC m.comments ++ comI fs ++ comI ts ++ comC r.comments
  | .defS c _ _ ps b _ _ _ t => comC c ++ comL ps ++ comL b ++ comE t
  | .returnS c _ r => comC c ++ comE r
  | .forS c _ v x b => comC c ++ comE v ++ comE x ++ comL b
  | .ifS c _ co t ep fa => comC c ++ comE co ++ comL t ++ comC ep.comments ++ comL fa
  | .file c s => comC c ++ comL s
def comL : List Expr → List Comment
  | [] => []
  | x :: l => comE x ++ comL l
end

/-- all comments of a file -/
def comF (f : File) : List Comment := comC f.comments ++ comL f.stmts

/-! ## Handing out suffix and line comments -/

theorem takeSuffix_count (e : Nat) (a : Comment) : ∀ l, (takeSuffix e l).1.count a + (takeSuffix e l).2.count a = l.count a := by
  intro l
  induction l with
  | nil => rfl
  | cons c l ih =>
    unfold takeSuffix
    split
    · simp only [List.count_cons]; omega
    · simp

theorem takeLine_count (e : Nat) (a : Comment) : ∀ l, (takeLine e l).1.count a + (takeLine e l).2.count a = l.count a := by
  intro l
  induction l with
  | nil => rfl
  | cons c l ih =>
    unfold takeLine
    split
    · simp only [List.count_cons]; omega
    · simp

theorem insertByte_count (c a : Comment) : ∀ l, (insertByte c l).count a = l.count a + (if c == a then 1 else 0) := by
  intro l
  induction l with
  | nil => simp [insertByte, List.count_cons]
  | cons d l ih =>
    unfold insertByte
    split
    · simp only [List.count_cons]
    · simp only [List.count_cons, ih]; omega

theorem sortByte_count (a : Comment) (l : List Comment) : (sortByte l).count a = l.count a := by
  unfold sortByte
  have : ∀ (l acc : List Comment), (l.foldl (fun acc c => insertByte c acc) acc).count a = acc.count a + l.count a := by
    intro l
    induction l with
    | nil => intro acc; simp
    | cons c l ih => intro acc; simp only [List.foldl_cons, ih, insertByte_count, List.count_cons]; omega
  simpa using this l []

theorem sufC_count (a : Comment) (c : Comments) (e : Pos) (l : List Comment) :
    (comC (sufC c e l).1).count a + (sufC c e l).2.count a = (comC c).count a + l.count a := by
  have := takeSuffix_count e.byte a l
  simp only [sufC, comC, List.count_append, List.count_reverse]
  omega

theorem linC_count (a : Comment) (c : Comments) (e : Pos) (l : List Comment) :
    (comC (linC c e l).1).count a + (linC c e l).2.count a = (comC c).count a + l.count a := by
  have := takeLine_count e.byte a l
  simp only [linC, comC, List.count_append, sortByte_count]
  omega

theorem sufEnd_count (a : Comment) (e : EndN) (l : List Comment) :
    (comC (sufEnd e l).1.comments).count a + (sufEnd e l).2.count a = (comC e.comments).count a + l.count a := sufC_count a _ _ l
theorem sufIdent_count (a : Comment) (e : IdentN) (l : List Comment) :
    (comC (sufIdent e l).1.comments).count a + (sufIdent e l).2.count a = (comC e.comments).count a + l.count a := sufC_count a _ _ l
theorem sufString_count (a : Comment) (e : StringN) (l : List Comment) :
    (comC (sufString e l).1.comments).count a + (sufString e l).2.count a = (comC e.comments).count a + l.count a := sufC_count a _ _ l
theorem linEnd_count (a : Comment) (e : EndN) (l : List Comment) :
    (comC (linEnd e l).1.comments).count a + (linEnd e l).2.count a = (comC e.comments).count a + l.count a := linC_count a _ _ l
theorem linIdent_count (a : Comment) (e : IdentN) (l : List Comment) :
    (comC (linIdent e l).1.comments).count a + (linIdent e l).2.count a = (comC e.comments).count a + l.count a := linC_count a _ _ l
theorem linString_count (a : Comment) (e : StringN) (l : List Comment) :
    (comC (linString e l).1.comments).count a + (linString e l).2.count a = (comC e.comments).count a + l.count a := linC_count a _ _ l

theorem sufLoad_count (a : Comment) : ∀ (fs ts : List IdentN) (l : List Comment),
    (comI (sufLoad fs ts l).1).count a + (comI (sufLoad fs ts l).2.1).count a + (sufLoad fs ts l).2.2.count a =
      (comI fs).count a + (comI ts).count a + l.count a := by
  intro fs
  induction fs with
  | nil => intro ts l; cases ts <;> rfl
  | cons f fs ih =>
    intro ts l
    cases ts with
    | nil => rfl
    | cons t ts =>
      have h1 := ih ts l
      have h2 := sufIdent_count a f (sufLoad fs ts l).2.2
      have h3 := sufIdent_count a t (sufIdent f (sufLoad fs ts l).2.2).2
      rcases hq : sufLoad fs ts l with ⟨p, q, r⟩
      rw [hq] at h1 h2 h3
      simp only [sufLoad, hq, comI, List.count_append] at h1 h2 h3 ⊢
      omega

theorem linLoad_count (a : Comment) : ∀ (fs ts : List IdentN) (l : List Comment),
    (comI (linLoad fs ts l).1).count a + (comI (linLoad fs ts l).2.1).count a + (linLoad fs ts l).2.2.count a =
      (comI fs).count a + (comI ts).count a + l.count a := by
  intro fs
  induction fs with
  | nil => intro ts l; cases ts <;> rfl
  | cons f fs ih =>
    intro ts l
    cases ts with
    | nil => rfl
    | cons t ts =>
      have h2 := linIdent_count a t l
      have h3 := linIdent_count a f (linIdent t l).2
      have h1 := ih ts (linIdent f (linIdent t l).2).2
      rcases hq : linLoad fs ts (linIdent f (linIdent t l).2).2 with ⟨p, q, r⟩
      rw [hq] at h1
      simp only [linLoad, hq, comI, List.count_append] at h1 ⊢
      omega

theorem rev_count (a : Comment) (c : Comments) : (comC { c with suffix := c.suffix.reverse }).count a = (comC c).count a := by
  simp [comC]

mutual
theorem sufE_count (w : Comment) : ∀ (x : Expr) (l : List Comment), (comE (sufE x l).1).count w + (sufE x l).2.count w = (comE x).count w + l.count w
  | .nil, l => by
    simp only [sufE, comE, List.count_append, rev_count] <;> omega
  | .commentBlock c s, l => by
    simp only [sufE, comE, List.count_append, rev_count] <;> omega
  | .ident n, l => by
    have h0 := sufIdent_count w n l
    simp only [sufE, comE, List.count_append, rev_count] <;> omega
  | .typedIdent c i t, l => by
    have h0 := sufC_count w c (Expr.endPos (.typedIdent c i t)) l
    have h1 := sufE_count w t (sufC c (Expr.endPos (.typedIdent c i t)) l).2
    simp only [sufE, comE, List.count_append, rev_count] <;> omega
  | .branch c t p, l => by
    have h0 := sufC_count w c (Expr.endPos (.branch c t p)) l
    simp only [sufE, comE, List.count_append, rev_count] <;> omega
  | .literal c s t, l => by
    have h0 := sufC_count w c (Expr.endPos (.literal c s t)) l
    simp only [sufE, comE, List.count_append, rev_count] <;> omega
  | .string n, l => by
    have h0 := sufString_count w n l
    simp only [sufE, comE, List.count_append, rev_count] <;> omega
  | .call c x ls xs e a b, l => by
    have h0 := sufC_count w c (Expr.endPos (.call c x ls xs e a b)) l
    have h1 := sufEnd_count w e (sufC c (Expr.endPos (.call c x ls xs e a b)) l).2
    have h2 := sufL_count w xs (sufEnd e (sufC c (Expr.endPos (.call c x ls xs e a b)) l).2).2
    have h3 := sufE_count w x (sufL xs (sufEnd e (sufC c (Expr.endPos (.call c x ls xs e a b)) l).2).2).2
    simp only [sufE, comE, List.count_append, rev_count] <;> omega
  | .dot c x d n s, l => by
    have h0 := sufC_count w c (Expr.endPos (.dot c x d n s)) l
    have h1 := sufE_count w x (sufC c (Expr.endPos (.dot c x d n s)) l).2
    simp only [sufE, comE, List.count_append, rev_count] <;> omega
  | .compr c cu lb body cl f e, l => by
    have h0 := sufC_count w c (Expr.endPos (.compr c cu lb body cl f e)) l
    have h1 := sufEnd_count w e (sufC c (Expr.endPos (.compr c cu lb body cl f e)) l).2
    have h2 := sufL_count w cl (sufEnd e (sufC c (Expr.endPos (.compr c cu lb body cl f e)) l).2).2
    have h3 := sufE_count w body (sufL cl (sufEnd e (sufC c (Expr.endPos (.compr c cu lb body cl f e)) l).2).2).2
    simp only [sufE, comE, List.count_append, rev_count] <;> omega
  | .forClause c f v i x, l => by
    have h0 := sufC_count w c (Expr.endPos (.forClause c f v i x)) l
    have h1 := sufE_count w x (sufC c (Expr.endPos (.forClause c f v i x)) l).2
    have h2 := sufE_count w v (sufE x (sufC c (Expr.endPos (.forClause c f v i x)) l).2).2
    simp only [sufE, comE, List.count_append, rev_count] <;> omega
  | .ifClause c i x, l => by
    have h0 := sufC_count w c (Expr.endPos (.ifClause c i x)) l
    have h1 := sufE_count w x (sufC c (Expr.endPos (.ifClause c i x)) l).2
    simp only [sufE, comE, List.count_append, rev_count] <;> omega
  | .keyValue c k p v, l => by
    have h0 := sufC_count w c (Expr.endPos (.keyValue c k p v)) l
    have h1 := sufE_count w v (sufC c (Expr.endPos (.keyValue c k p v)) l).2
    have h2 := sufE_count w k (sufE v (sufC c (Expr.endPos (.keyValue c k p v)) l).2).2
    simp only [sufE, comE, List.count_append, rev_count] <;> omega
  | .dict c s xs e f, l => by
    have h0 := sufC_count w c (Expr.endPos (.dict c s xs e f)) l
    have h1 := sufEnd_count w e (sufC c (Expr.endPos (.dict c s xs e f)) l).2
    have h2 := sufL_count w xs (sufEnd e (sufC c (Expr.endPos (.dict c s xs e f)) l).2).2
    simp only [sufE, comE, List.count_append, rev_count] <;> omega
  | .list c s xs e f, l => by
    have h0 := sufC_count w c (Expr.endPos (.list c s xs e f)) l
    have h1 := sufEnd_count w e (sufC c (Expr.endPos (.list c s xs e f)) l).2
    have h2 := sufL_count w xs (sufEnd e (sufC c (Expr.endPos (.list c s xs e f)) l).2).2
    simp only [sufE, comE, List.count_append, rev_count] <;> omega
  | .set c s xs e f, l => by
    have h0 := sufC_count w c (Expr.endPos (.set c s xs e f)) l
    have h1 := sufEnd_count w e (sufC c (Expr.endPos (.set c s xs e f)) l).2
    have h2 := sufL_count w xs (sufEnd e (sufC c (Expr.endPos (.set c s xs e f)) l).2).2
    simp only [sufE, comE, List.count_append, rev_count] <;> omega
  | .tuple c nb s xs e a b, l => by
    have h0 := sufC_count w c (Expr.endPos (.tuple c nb s xs e a b)) l
    have h1 : (comC (if nb then (e, (sufC c (Expr.endPos (.tuple c nb s xs e a b)) l).2) else sufEnd e (sufC c (Expr.endPos (.tuple c nb s xs e a b)) l).2).1.comments).count w + (if nb then (e, (sufC c (Expr.endPos (.tuple c nb s xs e a b)) l).2) else sufEnd e (sufC c (Expr.endPos (.tuple c nb s xs e a b)) l).2).2.count w = (comC e.comments).count w + ((sufC c (Expr.endPos (.tuple c nb s xs e a b)) l).2).count w := by
      split
      · rfl
      · exact sufEnd_count w e (sufC c (Expr.endPos (.tuple c nb s xs e a b)) l).2
    have h2 := sufL_count w xs (if nb then (e, (sufC c (Expr.endPos (.tuple c nb s xs e a b)) l).2) else sufEnd e (sufC c (Expr.endPos (.tuple c nb s xs e a b)) l).2).2
    simp only [sufE, comE, List.count_append, rev_count] <;> omega
  | .unary c o op x, l => by
    have h0 := sufC_count w c (Expr.endPos (.unary c o op x)) l
    have h1 := sufE_count w x (sufC c (Expr.endPos (.unary c o op x)) l).2
    simp only [sufE, comE, List.count_append, rev_count] <;> omega
  | .binary c x o op lb y, l => by
    have h0 := sufC_count w c (Expr.endPos (.binary c x o op lb y)) l
    have h1 := sufE_count w y (sufC c (Expr.endPos (.binary c x o op lb y)) l).2
    have h2 := sufE_count w x (sufE y (sufC c (Expr.endPos (.binary c x o op lb y)) l).2).2
    simp only [sufE, comE, List.count_append, rev_count] <;> omega
  | .assign c x o op lb y, l => by
    have h0 := sufC_count w c (Expr.endPos (.assign c x o op lb y)) l
    have h1 := sufE_count w y (sufC c (Expr.endPos (.assign c x o op lb y)) l).2
    have h2 := sufE_count w x (sufE y (sufC c (Expr.endPos (.assign c x o op lb y)) l).2).2
    simp only [sufE, comE, List.count_append, rev_count] <;> omega
  | .paren c s x e f, l => by
    have h0 := sufC_count w c (Expr.endPos (.paren c s x e f)) l
    have h1 := sufEnd_count w e (sufC c (Expr.endPos (.paren c s x e f)) l).2
    have h2 := sufE_count w x (sufEnd e (sufC c (Expr.endPos (.paren c s x e f)) l).2).2
    simp only [sufE, comE, List.count_append, rev_count] <;> omega
  | .slice c x s f c1 t c2 st e, l => by
    have h0 := sufC_count w c (Expr.endPos (.slice c x s f c1 t c2 st e)) l
    have h1 := sufE_count w st (sufC c (Expr.endPos (.slice c x s f c1 t c2 st e)) l).2
    have h2 := sufE_count w t (sufE st (sufC c (Expr.endPos (.slice c x s f c1 t c2 st e)) l).2).2
    have h3 := sufE_count w f (sufE t (sufE st (sufC c (Expr.endPos (.slice c x s f c1 t c2 st e)) l).2).2).2
    have h4 := sufE_count w x (sufE f (sufE t (sufE st (sufC c (Expr.endPos (.slice c x s f c1 t c2 st e)) l).2).2).2).2
    simp only [sufE, comE, List.count_append, rev_count] <;> omega
  | .index c x s y e, l => by
    have h0 := sufC_count w c (Expr.endPos (.index c x s y e)) l
    have h1 := sufE_count w y (sufC c (Expr.endPos (.index c x s y e)) l).2
    have h2 := sufE_count w x (sufE y (sufC c (Expr.endPos (.index c x s y e)) l).2).2
    simp only [sufE, comE, List.count_append, rev_count] <;> omega
  | .lambda c s ps b, l => by
    have h0 := sufC_count w c (Expr.endPos (.lambda c s ps b)) l
    have h1 := sufL_count w b (sufC c (Expr.endPos (.lambda c s ps b)) l).2
    have h2 := sufL_count w ps (sufL b (sufC c (Expr.endPos (.lambda c s ps b)) l).2).2
    simp only [sufE, comE, List.count_append, rev_count] <;> omega
  | .cond c t i te el e, l => by
    have h0 := sufC_count w c (Expr.endPos (.cond c t i te el e)) l
    have h1 := sufE_count w e (sufC c (Expr.endPos (.cond c t i te el e)) l).2
    have h2 := sufE_count w te (sufE e (sufC c (Expr.endPos (.cond c t i te el e)) l).2).2
    have h3 := sufE_count w t (sufE te (sufE e (sufC c (Expr.endPos (.cond c t i te el e)) l).2).2).2
    simp only [sufE, comE, List.count_append, rev_count] <;> omega
  | .load c lp m fs ts r fc, l => by
    have h0 := sufC_count w c (Expr.endPos (.load c lp m fs ts r fc)) l
    have h1 := sufEnd_count w r (sufC c (Expr.endPos (.load c lp m fs ts r fc)) l).2
    have h2 := sufLoad_count w fs ts (sufEnd r (sufC c (Expr.endPos (.load c lp m fs ts r fc)) l).2).2
    have h3 := sufString_count w m (sufLoad fs ts (sufEnd r (sufC c (Expr.endPos (.load c lp m fs ts r fc)) l).2).2).2.2
    rcases hq : sufLoad fs ts (sufEnd r (sufC c (Expr.endPos (.load c lp m fs ts r fc)) l).2).2 with ⟨p, q, z⟩
    rw [hq] at h2 h3
    simp only [sufE, hq, comE, List.count_append] at h0 h1 h2 h3 ⊢
    omega
  | .returnS c p r, l => by
    have h0 := sufC_count w c (Expr.endPos (.returnS c p r)) l
    have h1 := sufE_count w r (sufC c (Expr.endPos (.returnS c p r)) l).2
    simp only [sufE, comE, List.count_append, rev_count] <;> omega
  | .defS c s n ps b cp f1 f2 t, l => by
    have h0 := sufL_count w b l
    have h1 := sufL_count w ps (sufL b l).2
    simp only [sufE, comE, List.count_append, rev_count] <;> omega
  | .forS c f v x b, l => by
    have h0 := sufL_count w b l
    have h1 := sufE_count w x (sufL b l).2
    have h2 := sufE_count w v (sufE x (sufL b l).2).2
    simp only [sufE, comE, List.count_append, rev_count] <;> omega
  | .ifS c i co t ep fa, l => by
    have h0 := sufL_count w fa l
    have h1 : (comC (if fa.isEmpty then (ep, (sufL fa l).2) else sufEnd ep (sufL fa l).2).1.comments).count w + (if fa.isEmpty then (ep, (sufL fa l).2) else sufEnd ep (sufL fa l).2).2.count w = (comC ep.comments).count w + ((sufL fa l).2).count w := by
      split
      · rfl
      · exact sufEnd_count w ep (sufL fa l).2
    have h2 := sufL_count w t (if fa.isEmpty then (ep, (sufL fa l).2) else sufEnd ep (sufL fa l).2).2
    have h3 := sufE_count w co (sufL t (if fa.isEmpty then (ep, (sufL fa l).2) else sufEnd ep (sufL fa l).2).2).2
    simp only [sufE, comE, List.count_append, rev_count] <;> omega
  | .file c s, l => by
    have h0 := sufL_count w s l
    simp only [sufE, comE, List.count_append, rev_count] <;> omega
theorem sufL_count (w : Comment) : ∀ (x : List Expr) (l : List Comment), (comL (sufL x l).1).count w + (sufL x l).2.count w = (comL x).count w + l.count w
  | [], _ => rfl
  | x :: xs, l => by
    have h1 := sufL_count w xs l
    have h2 := sufE_count w x (sufL xs l).2
    simp only [sufL, comL, List.count_append]
    omega
end

mutual
theorem linE_count (w : Comment) : ∀ (x : Expr) (l : List Comment), (comE (linE x l).1).count w + (linE x l).2.count w = (comE x).count w + l.count w
  | .nil, l => by
    simp only [linE, comE, List.count_append, rev_count] <;> omega
  | .commentBlock c s, l => by
    have h0 := linC_count w c s l
    simp only [linE, comE, List.count_append, rev_count] <;> omega
  | .ident n, l => by
    have h0 := linIdent_count w n l
    simp only [linE, comE, List.count_append, rev_count] <;> omega
  | .typedIdent c i t, l => by
    have h0 := linC_count w c (Expr.startPos (.typedIdent c i t)) l
    have h1 := linE_count w t (linC c (Expr.startPos (.typedIdent c i t)) l).2
    simp only [linE, comE, List.count_append, rev_count] <;> omega
  | .branch c t p, l => by
    have h0 := linC_count w c p l
    simp only [linE, comE, List.count_append, rev_count] <;> omega
  | .literal c s t, l => by
    have h0 := linC_count w c s l
    simp only [linE, comE, List.count_append, rev_count] <;> omega
  | .string n, l => by
    have h0 := linString_count w n l
    simp only [linE, comE, List.count_append, rev_count] <;> omega
  | .call c x ls xs e a b, l => by
    have h0 := linC_count w c (Expr.startPos (.call c x ls xs e a b)) l
    have h1 := linE_count w x (linC c (Expr.startPos (.call c x ls xs e a b)) l).2
    have h2 := linL_count w xs (linE x (linC c (Expr.startPos (.call c x ls xs e a b)) l).2).2
    have h3 := linEnd_count w e (linL xs (linE x (linC c (Expr.startPos (.call c x ls xs e a b)) l).2).2).2
    simp only [linE, comE, List.count_append, rev_count] <;> omega
  | .dot c x d n s, l => by
    have h0 := linC_count w c (Expr.startPos (.dot c x d n s)) l
    have h1 := linE_count w x (linC c (Expr.startPos (.dot c x d n s)) l).2
    simp only [linE, comE, List.count_append, rev_count] <;> omega
  | .compr c cu lb body cl f e, l => by
    have h0 := linC_count w c (Expr.startPos (.compr c cu lb body cl f e)) l
    have h1 := linE_count w body (linC c (Expr.startPos (.compr c cu lb body cl f e)) l).2
    have h2 := linL_count w cl (linE body (linC c (Expr.startPos (.compr c cu lb body cl f e)) l).2).2
    have h3 := linEnd_count w e (linL cl (linE body (linC c (Expr.startPos (.compr c cu lb body cl f e)) l).2).2).2
    simp only [linE, comE, List.count_append, rev_count] <;> omega
  | .forClause c f v i x, l => by
    have h0 := linC_count w c (Expr.startPos (.forClause c f v i x)) l
    have h1 := linE_count w v (linC c (Expr.startPos (.forClause c f v i x)) l).2
    have h2 := linE_count w x (linE v (linC c (Expr.startPos (.forClause c f v i x)) l).2).2
    simp only [linE, comE, List.count_append, rev_count] <;> omega
  | .ifClause c i x, l => by
    have h0 := linC_count w c (Expr.startPos (.ifClause c i x)) l
    have h1 := linE_count w x (linC c (Expr.startPos (.ifClause c i x)) l).2
    simp only [linE, comE, List.count_append, rev_count] <;> omega
  | .keyValue c k p v, l => by
    have h0 := linC_count w c (Expr.startPos (.keyValue c k p v)) l
    have h1 := linE_count w k (linC c (Expr.startPos (.keyValue c k p v)) l).2
    have h2 := linE_count w v (linE k (linC c (Expr.startPos (.keyValue c k p v)) l).2).2
    simp only [linE, comE, List.count_append, rev_count] <;> omega
  | .dict c s xs e f, l => by
    have h0 := linC_count w c (Expr.startPos (.dict c s xs e f)) l
    have h1 := linL_count w xs (linC c (Expr.startPos (.dict c s xs e f)) l).2
    have h2 := linEnd_count w e (linL xs (linC c (Expr.startPos (.dict c s xs e f)) l).2).2
    simp only [linE, comE, List.count_append, rev_count] <;> omega
  | .list c s xs e f, l => by
    have h0 := linC_count w c (Expr.startPos (.list c s xs e f)) l
    have h1 := linL_count w xs (linC c (Expr.startPos (.list c s xs e f)) l).2
    have h2 := linEnd_count w e (linL xs (linC c (Expr.startPos (.list c s xs e f)) l).2).2
    simp only [linE, comE, List.count_append, rev_count] <;> omega
  | .set c s xs e f, l => by
    have h0 := linC_count w c (Expr.startPos (.set c s xs e f)) l
    have h1 := linL_count w xs (linC c (Expr.startPos (.set c s xs e f)) l).2
    have h2 := linEnd_count w e (linL xs (linC c (Expr.startPos (.set c s xs e f)) l).2).2
    simp only [linE, comE, List.count_append, rev_count] <;> omega
  | .tuple c nb s xs e a b, l => by
    have h0 := linC_count w c (Expr.startPos (.tuple c nb s xs e a b)) l
    have h1 := linL_count w xs (linC c (Expr.startPos (.tuple c nb s xs e a b)) l).2
    have h2 : (comC (if nb then (e, (linL xs (linC c (Expr.startPos (.tuple c nb s xs e a b)) l).2).2) else linEnd e (linL xs (linC c (Expr.startPos (.tuple c nb s xs e a b)) l).2).2).1.comments).count w + (if nb then (e, (linL xs (linC c (Expr.startPos (.tuple c nb s xs e a b)) l).2).2) else linEnd e (linL xs (linC c (Expr.startPos (.tuple c nb s xs e a b)) l).2).2).2.count w = (comC e.comments).count w + ((linL xs (linC c (Expr.startPos (.tuple c nb s xs e a b)) l).2).2).count w := by
      split
      · rfl
      · exact linEnd_count w e (linL xs (linC c (Expr.startPos (.tuple c nb s xs e a b)) l).2).2
    simp only [linE, comE, List.count_append, rev_count] <;> omega
  | .unary c o op x, l => by
    have h0 := linC_count w c (Expr.startPos (.unary c o op x)) l
    have h1 := linE_count w x (linC c (Expr.startPos (.unary c o op x)) l).2
    simp only [linE, comE, List.count_append, rev_count] <;> omega
  | .binary c x o op lb y, l => by
    have h0 := linC_count w c (Expr.startPos (.binary c x o op lb y)) l
    have h1 := linE_count w x (linC c (Expr.startPos (.binary c x o op lb y)) l).2
    have h2 := linE_count w y (linE x (linC c (Expr.startPos (.binary c x o op lb y)) l).2).2
    simp only [linE, comE, List.count_append, rev_count] <;> omega
  | .assign c x o op lb y, l => by
    have h0 := linC_count w c (Expr.startPos (.assign c x o op lb y)) l
    have h1 := linE_count w x (linC c (Expr.startPos (.assign c x o op lb y)) l).2
    have h2 := linE_count w y (linE x (linC c (Expr.startPos (.assign c x o op lb y)) l).2).2
    simp only [linE, comE, List.count_append, rev_count] <;> omega
  | .paren c s x e f, l => by
    have h0 := linC_count w c (Expr.startPos (.paren c s x e f)) l
    have h1 := linE_count w x (linC c (Expr.startPos (.paren c s x e f)) l).2
    have h2 := linEnd_count w e (linE x (linC c (Expr.startPos (.paren c s x e f)) l).2).2
    simp only [linE, comE, List.count_append, rev_count] <;> omega
  | .slice c x s f c1 t c2 st e, l => by
    have h0 := linC_count w c (Expr.startPos (.slice c x s f c1 t c2 st e)) l
    have h1 := linE_count w x (linC c (Expr.startPos (.slice c x s f c1 t c2 st e)) l).2
    have h2 := linE_count w f (linE x (linC c (Expr.startPos (.slice c x s f c1 t c2 st e)) l).2).2
    have h3 := linE_count w t (linE f (linE x (linC c (Expr.startPos (.slice c x s f c1 t c2 st e)) l).2).2).2
    have h4 := linE_count w st (linE t (linE f (linE x (linC c (Expr.startPos (.slice c x s f c1 t c2 st e)) l).2).2).2).2
    simp only [linE, comE, List.count_append, rev_count] <;> omega
  | .index c x s y e, l => by
    have h0 := linC_count w c (Expr.startPos (.index c x s y e)) l
    have h1 := linE_count w x (linC c (Expr.startPos (.index c x s y e)) l).2
    have h2 := linE_count w y (linE x (linC c (Expr.startPos (.index c x s y e)) l).2).2
    simp only [linE, comE, List.count_append, rev_count] <;> omega
  | .lambda c s ps b, l => by
    have h0 := linC_count w c (Expr.startPos (.lambda c s ps b)) l
    have h1 := linL_count w ps (linC c (Expr.startPos (.lambda c s ps b)) l).2
    have h2 := linL_count w b (linL ps (linC c (Expr.startPos (.lambda c s ps b)) l).2).2
    simp only [linE, comE, List.count_append, rev_count] <;> omega
  | .cond c t i te el e, l => by
    have h0 := linC_count w c (Expr.startPos (.cond c t i te el e)) l
    have h1 := linE_count w t (linC c (Expr.startPos (.cond c t i te el e)) l).2
    have h2 := linE_count w te (linE t (linC c (Expr.startPos (.cond c t i te el e)) l).2).2
    have h3 := linE_count w e (linE te (linE t (linC c (Expr.startPos (.cond c t i te el e)) l).2).2).2
    simp only [linE, comE, List.count_append, rev_count] <;> omega
  | .load c lp m fs ts r fc, l => by
    have h0 := linC_count w c (Expr.startPos (.load c lp m fs ts r fc)) l
    have h1 := linString_count w m (linC c (Expr.startPos (.load c lp m fs ts r fc)) l).2
    have h2 := linLoad_count w fs ts (linString m (linC c (Expr.startPos (.load c lp m fs ts r fc)) l).2).2
    have h3 := linEnd_count w r (linLoad fs ts (linString m (linC c (Expr.startPos (.load c lp m fs ts r fc)) l).2).2).2.2
    rcases hq : linLoad fs ts (linString m (linC c (Expr.startPos (.load c lp m fs ts r fc)) l).2).2 with ⟨p, q, z⟩
    rw [hq] at h2 h3
    simp only [linE, hq, comE, List.count_append] at h0 h1 h2 h3 ⊢
    omega
  | .returnS c p r, l => by
    have h0 := linC_count w c (Expr.startPos (.returnS c p r)) l
    have h1 := linE_count w r (linC c (Expr.startPos (.returnS c p r)) l).2
    simp only [linE, comE, List.count_append, rev_count] <;> omega
  | .defS c s n ps b cp f1 f2 t, l => by
    have h0 := linC_count w c (Expr.startPos (.defS c s n ps b cp f1 f2 t)) l
    have h1 := linL_count w ps (linC c (Expr.startPos (.defS c s n ps b cp f1 f2 t)) l).2
    have h2 := linL_count w b (linL ps (linC c (Expr.startPos (.defS c s n ps b cp f1 f2 t)) l).2).2
    simp only [linE, comE, List.count_append, rev_count] <;> omega
  | .forS c f v x b, l => by
    have h0 := linC_count w c (Expr.startPos (.forS c f v x b)) l
    have h1 := linE_count w v (linC c (Expr.startPos (.forS c f v x b)) l).2
    have h2 := linE_count w x (linE v (linC c (Expr.startPos (.forS c f v x b)) l).2).2
    have h3 := linL_count w b (linE x (linE v (linC c (Expr.startPos (.forS c f v x b)) l).2).2).2
    simp only [linE, comE, List.count_append, rev_count] <;> omega
  | .ifS c i co t ep fa, l => by
    have h0 := linC_count w c (Expr.startPos (.ifS c i co t ep fa)) l
    have h1 := linE_count w co (linC c (Expr.startPos (.ifS c i co t ep fa)) l).2
    have h2 := linL_count w t (linE co (linC c (Expr.startPos (.ifS c i co t ep fa)) l).2).2
    have h3 : (comC (if fa.isEmpty then (ep, (linL t (linE co (linC c (Expr.startPos (.ifS c i co t ep fa)) l).2).2).2) else linEnd ep (linL t (linE co (linC c (Expr.startPos (.ifS c i co t ep fa)) l).2).2).2).1.comments).count w + (if fa.isEmpty then (ep, (linL t (linE co (linC c (Expr.startPos (.ifS c i co t ep fa)) l).2).2).2) else linEnd ep (linL t (linE co (linC c (Expr.startPos (.ifS c i co t ep fa)) l).2).2).2).2.count w = (comC ep.comments).count w + ((linL t (linE co (linC c (Expr.startPos (.ifS c i co t ep fa)) l).2).2).2).count w := by
      split
      · rfl
      · exact linEnd_count w ep (linL t (linE co (linC c (Expr.startPos (.ifS c i co t ep fa)) l).2).2).2
    have h4 := linL_count w fa (if fa.isEmpty then (ep, (linL t (linE co (linC c (Expr.startPos (.ifS c i co t ep fa)) l).2).2).2) else linEnd ep (linL t (linE co (linC c (Expr.startPos (.ifS c i co t ep fa)) l).2).2).2).2
    simp only [linE, comE, List.count_append, rev_count] <;> omega
  | .file c s, l => by
    have h0 := linC_count w c (Expr.startPos (.file c s)) l
    have h1 := linL_count w s (linC c (Expr.startPos (.file c s)) l).2
    simp only [linE, comE, List.count_append, rev_count] <;> omega
theorem linL_count (w : Comment) : ∀ (x : List Expr) (l : List Comment), (comL (linL x l).1).count w + (linL x l).2.count w = (comL x).count w + l.count w
  | [], _ => rfl
  | x :: xs, l => by
    have h2 := linE_count w x l
    have h1 := linL_count w xs (linE x l).2
    simp only [linL, comL, List.count_append]
    omega
end

/-- **C46** Handing out the saved comments to the nodes of a file loses and duplicates nothing, whatever the tree and the positions. -/
theorem C46_assign (stmts : List Expr) (suffix line : List Comment) :
    List.Perm (comC (assign stmts suffix line).1 ++ comL (assign stmts suffix line).2) (comL stmts ++ suffix ++ line) := by
  rw [List.perm_iff_count]
  intro w
  have h1 := sufL_count w stmts suffix.reverse
  have h2 := linC_count w { before := (sufL stmts suffix.reverse).2.reverse } (Expr.startPos (.file {} (sufL stmts suffix.reverse).1)) line
  have h3 := linL_count w (sufL stmts suffix.reverse).1 (linC { before := (sufL stmts suffix.reverse).2.reverse } (Expr.startPos (.file {} (sufL stmts suffix.reverse).1)) line).2
  have hb : (linC { before := (sufL stmts suffix.reverse).2.reverse } (Expr.startPos (.file {} (sufL stmts suffix.reverse).1)) line).1.after = [] := rfl
  simp only [assign, comC, List.count_append, List.count_reverse, List.count_nil, hb] at h1 h2 h3 ⊢
  omega

/-! ## Comments that are tokens: through the parser -/

open Verif.Parser Verif.Grammar Verif.Props.Grammar

/-- the comments among the tokens -/
def tokC (ts : List Tok) : List Comment := ts.filterMap (fun t => if t.kind = K.comment then some ⟨t.pos, t.tok⟩ else none)

theorem tokC_append (a b : List Tok) : tokC (a ++ b) = tokC a ++ tokC b := List.filterMap_append ..

def noBefore (x : Expr) : Bool := !isCommentBlock x || x.comments.before.isEmpty
def noSuffix (x : Expr) : Bool := !isCommentBlock x || x.comments.suffix.isEmpty

mutual
/-- not nil, and comment blocks in bodies hold their comments in `After` -/
def okE : Expr → Bool
  | .nil => false
  | .defS _ _ _ _ b .. => okTail b
  | .forS _ _ _ _ b => okTail b
  | .ifS _ _ _ t _ f => okTail t && okTail f
  | _ => true
def okTail : List Expr → Bool
  | [] => true
  | x :: l => okE x && noSuffix x && noBefore x && okTail l
end

def Plain (x : Expr) : Prop := comE x = [] ∧ isCommentBlock x = false ∧ okE x = true
def Blk (x : Expr) : Prop := ∃ a s, x = .commentBlock { after := a } s
def Same (l : List Comment) (ts : List Tok) : Prop := ∀ w, l.count w = (tokC ts).count w

/-- an elif chain under construction -/
inductive Chain : Expr → Prop
  | last (c ip co t e) : comC e.comments = [] → Chain (.ifS c ip co t e [])
  | more (c ip co t e x) : Chain x → Chain (.ifS c ip co t e [x])

def BlockP (ts : List Tok) (v : Val) : Prop :=
  Same (comE v.expr) ts ∧ okE v.expr = true ∧ isCommentBlock v.expr = false ∧ comC v.expr.comments = []

/-- what the first statement of a list looks like, depending on the first token -/
def HeadOK (ts : List Tok) (l : List Expr) : Prop :=
  (ts = [] ∧ l = []) ∨ (∃ t r, ts = t :: r ∧ (t.kind = K.newline ∨ t.kind = K.comment)) ∨
    ∃ x l', l = x :: l' ∧ isCommentBlock x = false ∧ x.comments.before = []

/-- What is known about the comments in the value of each nonterminal. -/
def ComP : VP := fun a ts v => match a with
  | .file => Same (comL v.exprs) ts
  | .stmts => Same (comL v.exprs) ts ∧ okTail v.exprs = true ∧ (v.last = true → v.exprs ≠ []) ∧ HeadOK ts v.exprs
  | .comments => Same (comL v.exprs) ts ∧ (∀ x ∈ v.exprs, Blk x) ∧ (v.last = true → v.exprs ≠ [])
  | .suite => Same (comL v.exprs) ts ∧ okTail v.exprs = true
  | .stmt => Same (comL v.exprs) ts ∧ okTail v.exprs = true ∧
      ∃ x l, v.exprs = x :: l ∧ isCommentBlock x = false ∧ x.comments.before = []
  | .simpleStmt => tokC ts = [] ∧ v.exprs ≠ [] ∧ ∀ x ∈ v.exprs, Plain x
  | .blockStmt => BlockP ts v
  | .ifElseBlock => BlockP ts v
  | .ifChain => BlockP ts v ∧ Chain v.expr
  | .commaOpt => tokC ts = [] | .commas => tokC ts = [] | .commasOpt => tokC ts = [] | .linebreaksOpt => tokC ts = []
  | .semiOpt => tokC ts = [] | .elif_ => tokC ts = []
  | .loadArguments => tokC ts = [] ∧ comI (v.loadargs.map (·.1)) = [] ∧ comI (v.loadargs.map (·.2)) = []
  | .loadArgument => tokC ts = [] ∧ comI (v.loadargs.map (·.1)) = [] ∧ comI (v.loadargs.map (·.2)) = []
  | .ident => tokC ts = [] ∧ ∃ p s, v.expr = .ident ⟨{}, p, s⟩
  | .string => tokC ts = [] ∧ ∃ p s b e t, v.expr = .string ⟨{}, p, s, b, e, t⟩
  | .exprOpt => tokC ts = [] ∧ comE v.expr = []
  | .testOpt => tokC ts = [] ∧ comE v.expr = []
  | .arguments => tokC ts = [] ∧ ∀ x ∈ v.exprs, Plain x
  | .argumentsOpt => tokC ts = [] ∧ ∀ x ∈ v.exprs, Plain x
  | .parameters => tokC ts = [] ∧ ∀ x ∈ v.exprs, Plain x
  | .parametersOpt => tokC ts = [] ∧ ∀ x ∈ v.exprs, Plain x
  | .parametersType => tokC ts = [] ∧ ∀ x ∈ v.exprs, Plain x
  | .parametersTypeOpt => tokC ts = [] ∧ ∀ x ∈ v.exprs, Plain x
  | .tests => tokC ts = [] ∧ ∀ x ∈ v.exprs, Plain x
  | .testsOpt => tokC ts = [] ∧ ∀ x ∈ v.exprs, Plain x
  | .keyvalues => tokC ts = [] ∧ ∀ x ∈ v.exprs, Plain x
  | .keyvaluesNoComma => tokC ts = [] ∧ ∀ x ∈ v.exprs, Plain x
  | .forClauseWithIfClausesOpt => tokC ts = [] ∧ ∀ x ∈ v.exprs, Plain x
  | .forClausesWithIfClausesOpt => tokC ts = [] ∧ ∀ x ∈ v.exprs, Plain x
  | .smallStmtsContinuation => tokC ts = [] ∧ ∀ x ∈ v.exprs, Plain x
  | _ => tokC ts = [] ∧ Plain v.expr

theorem comL_plain : ∀ {l : List Expr}, (∀ x ∈ l, Plain x) → comL l = [] := by
  intro l
  induction l with
  | nil => intro _; rfl
  | cons x l ih =>
    intro h
    rw [comL, (h x (List.mem_cons_self ..)).1, ih (fun y hy => h y (List.mem_cons_of_mem _ hy))]
    rfl

theorem comL_append (a b : List Expr) : comL (a ++ b) = comL a ++ comL b := by
  induction a with
  | nil => rfl
  | cons x a ih => simp [comL, ih]

theorem comI_append (a b : List IdentN) : comI (a ++ b) = comI a ++ comI b := by
  induction a with
  | nil => rfl
  | cons x a ih => simp [comI, ih]

theorem comC_empty : comC {} = [] := rfl

theorem plain_binary {x y : Expr} (p : Pos) (op : Bytes) (hx : comE x = []) (hy : comE y = []) : Plain (mkBinary x p op y) := by
  unfold mkBinary
  dsimp only
  split <;> exact ⟨by simp [comE, comC, hx, hy], rfl, rfl⟩

theorem plain_unary {x : Expr} (p : Pos) (op : Bytes) (hx : comE x = []) : Plain (mkUnary p op x) :=
  ⟨by simp [mkUnary, comE, comC, hx], rfl, rfl⟩

theorem plain_tuple {x y : Expr} (hx : Plain x) (hy : Plain y) : Plain (tupleAppend x y) := by
  unfold tupleAppend
  split
  · rename_i c s l e fc fm
    obtain ⟨h, _, _⟩ := hx
    simp only [comE, List.append_eq_nil_iff] at h
    exact ⟨by simp [comE, comL_append, comL, h, hy.1], rfl, rfl⟩
  · exact ⟨by simp [comE, comL, comC, hx.1, hy.1], rfl, rfl⟩

theorem plain_snoc {l : List Expr} {x : Expr} (h : ∀ y ∈ l, Plain y) (hx : Plain x) : ∀ y ∈ l ++ [x], Plain y := by
  intro y hy
  rcases List.mem_append.1 hy with hy | hy
  · exact h y hy
  · rw [List.mem_singleton.1 hy]; exact hx

theorem tokC_one {t : Tok} {k : Kind} (h : t.kind = k) (hk : k ≠ K.comment) : tokC [t] = [] := by
  subst h
  simp [tokC, hk]

/-! ### Productions of expressions and small statements -/

theorem step3 : StepOK ComP 3 := prod0 rfl (fun v h => by
  cases h
  exact (show tokC _ = [] from (rfl : tokC [] = [])))

theorem step4 : StepOK ComP 4 := prod2 rfl (fun t1 t2 v1 v2 v h1 h2 h => by
  have c1 : tokC t1 = [] := h1
  obtain ⟨u2, rfl, k2, rfl⟩ := h2
  have c2 := tokC_one k2 (by decide)
  cases h
  exact (show tokC _ = [] from by simp only [tokC_append, List.append_nil, c1, c2]))

theorem step14 : StepOK ComP 14 := prod5 rfl (fun t1 t2 t3 t4 t5 v1 v2 v3 v4 v5 v h1 h2 h3 h4 h5 h => by
  obtain ⟨u1, rfl, k1, rfl⟩ := h1
  have c1 := tokC_one k1 (by decide)
  obtain ⟨u2, rfl, k2, rfl⟩ := h2
  have c2 := tokC_one k2 (by decide)
  obtain ⟨u3, rfl, k3, rfl⟩ := h3
  have c3 := tokC_one k3 (by decide)
  obtain ⟨c4, q4⟩ := h4
  have q4' := comL_plain q4
  obtain ⟨u5, rfl, k5, rfl⟩ := h5
  have c5 := tokC_one k5 (by decide)
  cases h
  refine ⟨by simp only [tokC_append, List.append_nil, c1, c2, c3, c4, c5], ?_⟩
  first
  | exact plain_unary _ _ rfl
  | exact ⟨by simp [comE, comC, comL, comI, q4'], rfl, rfl⟩)

theorem step15 : StepOK ComP 15 := prod1 rfl (fun t1 v1 v h1 h => by
  obtain ⟨c1, p1⟩ := h1
  cases h
  refine ⟨c1, ?_⟩
  first
  | exact p1
  | exact plain_unary _ _ p1.1
  | exact plain_unary _ _ rfl
  | exact ⟨by simp [comE, comC, comL, comI, p1.1], rfl, rfl⟩)

theorem step16 : StepOK ComP 16 := prod3 rfl (fun t1 t2 t3 v1 v2 v3 v h1 h2 h3 h => by
  obtain ⟨c1, p1⟩ := h1
  obtain ⟨u2, rfl, k2, rfl⟩ := h2
  have c2 := tokC_one k2 (by decide)
  obtain ⟨c3, p3⟩ := h3
  obtain ⟨c, sp, n, ps, b, cp, fc, fm, t, he, rfl⟩ := sem17 h
  rw [he] at p1
  obtain ⟨h1, h2, h3⟩ := p1
  simp only [comE, List.append_eq_nil_iff] at h1
  exact ⟨by simp only [tokC_append, List.append_nil, c1, c2, c3], by simp [comE, h1, p3.1], rfl, h3⟩)

theorem step24 : StepOK ComP 24 := prod2 rfl (fun t1 t2 v1 v2 v h1 h2 h => by
  obtain ⟨u1, rfl, k1, rfl⟩ := h1
  have c1 := tokC_one k1 (by decide)
  obtain ⟨u2, rfl, k2, rfl⟩ := h2
  have c2 := tokC_one k2 (by decide)
  cases h
  exact (show tokC _ = [] from by simp only [tokC_append, List.append_nil, c1, c2]))

theorem step25 : StepOK ComP 25 := prod1 rfl (fun t1 v1 v h1 h => by
  obtain ⟨u1, rfl, k1, rfl⟩ := h1
  have c1 := tokC_one k1 (by decide)
  cases h
  exact (show tokC _ = [] from c1))

theorem step26 : StepOK ComP 26 := prod4 rfl (fun t1 t2 t3 t4 v1 v2 v3 v4 v h1 h2 h3 h4 h => by
  obtain ⟨c1, p1⟩ := h1
  obtain ⟨c2, q2⟩ := h2
  have q2' := comL_plain q2
  have c3 : tokC t3 = [] := h3
  obtain ⟨u4, rfl, k4, rfl⟩ := h4
  have c4 := tokC_one k4 (by decide)
  cases h
  exact ⟨by simp only [tokC_append, List.append_nil, c1, c2, c3, c4], by simp, fun x hx => (List.mem_cons.1 hx).elim (fun e => e ▸ p1) (q2 x)⟩)

theorem step27 : StepOK ComP 27 := prod0 rfl (fun v h => by
  cases h
  refine ⟨(rfl : tokC [] = []), ?_⟩
  first
  | exact fun x hx => by simp at hx
  | exact nofun)

theorem step28 : StepOK ComP 28 := prod3 rfl (fun t1 t2 t3 v1 v2 v3 v h1 h2 h3 h => by
  obtain ⟨c1, q1⟩ := h1
  have q1' := comL_plain q1
  obtain ⟨u2, rfl, k2, rfl⟩ := h2
  have c2 := tokC_one k2 (by decide)
  obtain ⟨c3, p3⟩ := h3
  cases h
  refine ⟨by simp only [tokC_append, List.append_nil, c1, c2, c3], ?_⟩
  first
  | exact q1
  | exact plain_snoc q1 p3
  | exact fun x hx => by simp at hx; subst hx; exact p3
  | exact fun x hx => by simp at hx
  | exact nofun)

theorem step29 : StepOK ComP 29 := prod1 rfl (fun t1 v1 v h1 h => by
  obtain ⟨c1, p1⟩ := h1
  cases h
  refine ⟨c1, ?_⟩
  first
  | exact p1
  | exact plain_unary _ _ p1.1
  | exact plain_unary _ _ rfl
  | exact ⟨by simp [comE, comC, comL, comI, p1.1], rfl, rfl⟩)

theorem step30 : StepOK ComP 30 := prod2 rfl (fun t1 t2 v1 v2 v h1 h2 h => by
  obtain ⟨u1, rfl, k1, rfl⟩ := h1
  have c1 := tokC_one k1 (by decide)
  obtain ⟨c2, p2⟩ := h2
  cases h
  refine ⟨by simp only [tokC_append, List.append_nil, c1, c2], ?_⟩
  first
  | exact p2
  | exact plain_unary _ _ p2.1
  | exact plain_unary _ _ rfl
  | exact ⟨by simp [comE, comC, comL, comI, p2.1], rfl, rfl⟩)

theorem step31 : StepOK ComP 31 := prod1 rfl (fun t1 v1 v h1 h => by
  obtain ⟨u1, rfl, k1, rfl⟩ := h1
  have c1 := tokC_one k1 (by decide)
  cases h
  refine ⟨c1, ?_⟩
  first
  | exact plain_unary _ _ rfl
  | exact ⟨by simp [comE, comC, comL, comI], rfl, rfl⟩)

theorem step32 : StepOK ComP 32 := prod3 rfl (fun t1 t2 t3 v1 v2 v3 v h1 h2 h3 h => by
  obtain ⟨c1, p1⟩ := h1
  obtain ⟨u2, rfl, k2, rfl⟩ := h2
  have c2 := tokC_one k2 (by decide)
  obtain ⟨c3, p3⟩ := h3
  cases h
  refine ⟨by simp only [tokC_append, List.append_nil, c1, c2, c3], ?_⟩
  first
  | exact p1
  | exact p3
  | exact plain_binary _ _ p1.1 p3.1
  | exact plain_tuple p1 p3
  | exact plain_unary _ _ rfl
  | exact ⟨by simp [comE, comC, comL, comI, p1.1, p3.1], rfl, rfl⟩)

theorem step33 : StepOK ComP 33 := prod3 rfl (fun t1 t2 t3 v1 v2 v3 v h1 h2 h3 h => by
  obtain ⟨c1, p1⟩ := h1
  obtain ⟨u2, rfl, k2, rfl⟩ := h2
  have c2 := tokC_one k2 (by decide)
  obtain ⟨c3, p3⟩ := h3
  cases h
  refine ⟨by simp only [tokC_append, List.append_nil, c1, c2, c3], ?_⟩
  first
  | exact p1
  | exact p3
  | exact plain_binary _ _ p1.1 p3.1
  | exact plain_tuple p1 p3
  | exact plain_unary _ _ rfl
  | exact ⟨by simp [comE, comC, comL, comI, p1.1, p3.1], rfl, rfl⟩)

theorem step34 : StepOK ComP 34 := prod1 rfl (fun t1 v1 v h1 h => by
  obtain ⟨u1, rfl, k1, rfl⟩ := h1
  have c1 := tokC_one k1 (by decide)
  cases h
  refine ⟨c1, ?_⟩
  first
  | exact plain_unary _ _ rfl
  | exact ⟨by simp [comE, comC, comL, comI], rfl, rfl⟩)

theorem step35 : StepOK ComP 35 := prod1 rfl (fun t1 v1 v h1 h => by
  obtain ⟨u1, rfl, k1, rfl⟩ := h1
  have c1 := tokC_one k1 (by decide)
  cases h
  refine ⟨c1, ?_⟩
  first
  | exact plain_unary _ _ rfl
  | exact ⟨by simp [comE, comC, comL, comI], rfl, rfl⟩)

theorem step36 : StepOK ComP 36 := prod1 rfl (fun t1 v1 v h1 h => by
  obtain ⟨u1, rfl, k1, rfl⟩ := h1
  have c1 := tokC_one k1 (by decide)
  cases h
  refine ⟨c1, ?_⟩
  first
  | exact plain_unary _ _ rfl
  | exact ⟨by simp [comE, comC, comL, comI], rfl, rfl⟩)

theorem step37 : StepOK ComP 37 := prod0 rfl (fun v h => by
  cases h
  exact (show tokC _ = [] from (rfl : tokC [] = [])))

theorem step38 : StepOK ComP 38 := prod1 rfl (fun t1 v1 v h1 h => by
  obtain ⟨u1, rfl, k1, rfl⟩ := h1
  have c1 := tokC_one k1 (by decide)
  cases h
  exact (show tokC _ = [] from c1))

theorem step39 : StepOK ComP 39 := prod1 rfl (fun t1 v1 v h1 h => by
  obtain ⟨c1, y1, z1, e1⟩ := h1
  have p1 : Plain v1.expr := by rw [e1]; exact ⟨rfl, rfl, rfl⟩
  cases h
  refine ⟨c1, ?_⟩
  first
  | exact p1
  | exact plain_unary _ _ p1.1
  | exact plain_unary _ _ rfl
  | exact ⟨by simp [comE, comC, comL, comI, p1.1], rfl, rfl⟩)

theorem step40 : StepOK ComP 40 := prod1 rfl (fun t1 v1 v h1 h => by
  obtain ⟨c1, p1⟩ := h1
  cases h
  refine ⟨c1, ?_⟩
  first
  | exact p1
  | exact plain_unary _ _ p1.1
  | exact plain_unary _ _ rfl
  | exact ⟨by simp [comE, comC, comL, comI, p1.1], rfl, rfl⟩)

theorem step41 : StepOK ComP 41 := prod1 rfl (fun t1 v1 v h1 h => by
  obtain ⟨c1, y1, z1, o1, m1, n1, e1⟩ := h1
  have p1 : Plain v1.expr := by rw [e1]; exact ⟨rfl, rfl, rfl⟩
  cases h
  refine ⟨c1, ?_⟩
  first
  | exact p1
  | exact plain_unary _ _ p1.1
  | exact plain_unary _ _ rfl
  | exact ⟨by simp [comE, comC, comL, comI, p1.1], rfl, rfl⟩)

theorem step42 : StepOK ComP 42 := prod3 rfl (fun t1 t2 t3 v1 v2 v3 v h1 h2 h3 h => by
  obtain ⟨c1, p1⟩ := h1
  obtain ⟨u2, rfl, k2, rfl⟩ := h2
  have c2 := tokC_one k2 (by decide)
  obtain ⟨u3, rfl, k3, rfl⟩ := h3
  have c3 := tokC_one k3 (by decide)
  cases h
  refine ⟨by simp only [tokC_append, List.append_nil, c1, c2, c3], ?_⟩
  first
  | exact p1
  | exact plain_unary _ _ p1.1
  | exact plain_unary _ _ rfl
  | exact ⟨by simp [comE, comC, comL, comI, p1.1], rfl, rfl⟩)

theorem step43 : StepOK ComP 43 := prod8 rfl (fun t1 t2 t3 t4 t5 t6 t7 t8 v1 v2 v3 v4 v5 v6 v7 v8 v h1 h2 h3 h4 h5 h6 h7 h8 h => by
  obtain ⟨u1, rfl, k1, rfl⟩ := h1
  have c1 := tokC_one k1 (by decide)
  obtain ⟨u2, rfl, k2, rfl⟩ := h2
  have c2 := tokC_one k2 (by decide)
  have c3 : tokC t3 = [] := h3
  obtain ⟨c4, y4, z4, o4, m4, n4, e4⟩ := h4
  have p4 : Plain v4.expr := by rw [e4]; exact ⟨rfl, rfl, rfl⟩
  have c5 : tokC t5 = [] := h5
  obtain ⟨c6, a6, b6⟩ := h6
  have c7 : tokC t7 = [] := h7
  obtain ⟨u8, rfl, k8, rfl⟩ := h8
  have c8 := tokC_one k8 (by decide)
  cases h
  refine ⟨by simp only [tokC_append, List.append_nil, c1, c2, c3, c4, c5, c6, c7, c8], ?_⟩
  first
  | exact ⟨by simp [comE, comC, a6, b6, e4, asString], rfl, rfl⟩)

theorem step44 : StepOK ComP 44 := prod4 rfl (fun t1 t2 t3 t4 v1 v2 v3 v4 v h1 h2 h3 h4 h => by
  obtain ⟨c1, p1⟩ := h1
  obtain ⟨u2, rfl, k2, rfl⟩ := h2
  have c2 := tokC_one k2 (by decide)
  obtain ⟨c3, q3⟩ := h3
  have q3' := comL_plain q3
  obtain ⟨u4, rfl, k4, rfl⟩ := h4
  have c4 := tokC_one k4 (by decide)
  cases h
  refine ⟨by simp only [tokC_append, List.append_nil, c1, c2, c3, c4], ?_⟩
  first
  | exact p1
  | exact plain_unary _ _ p1.1
  | exact plain_unary _ _ rfl
  | exact ⟨by simp [comE, comC, comL, comI, p1.1, q3'], rfl, rfl⟩)

theorem step45 : StepOK ComP 45 := prod4 rfl (fun t1 t2 t3 t4 v1 v2 v3 v4 v h1 h2 h3 h4 h => by
  obtain ⟨c1, p1⟩ := h1
  obtain ⟨u2, rfl, k2, rfl⟩ := h2
  have c2 := tokC_one k2 (by decide)
  obtain ⟨c3, p3⟩ := h3
  obtain ⟨u4, rfl, k4, rfl⟩ := h4
  have c4 := tokC_one k4 (by decide)
  cases h
  refine ⟨by simp only [tokC_append, List.append_nil, c1, c2, c3, c4], ?_⟩
  first
  | exact p1
  | exact p3
  | exact plain_binary _ _ p1.1 p3.1
  | exact plain_tuple p1 p3
  | exact plain_unary _ _ rfl
  | exact ⟨by simp [comE, comC, comL, comI, p1.1, p3.1], rfl, rfl⟩)

theorem step46 : StepOK ComP 46 := prod6 rfl (fun t1 t2 t3 t4 t5 t6 v1 v2 v3 v4 v5 v6 v h1 h2 h3 h4 h5 h6 h => by
  obtain ⟨c1, p1⟩ := h1
  obtain ⟨u2, rfl, k2, rfl⟩ := h2
  have c2 := tokC_one k2 (by decide)
  obtain ⟨c3, p3⟩ := h3
  obtain ⟨u4, rfl, k4, rfl⟩ := h4
  have c4 := tokC_one k4 (by decide)
  obtain ⟨c5, p5⟩ := h5
  obtain ⟨u6, rfl, k6, rfl⟩ := h6
  have c6 := tokC_one k6 (by decide)
  cases h
  refine ⟨by simp only [tokC_append, List.append_nil, c1, c2, c3, c4, c5, c6], ?_⟩
  first
  | exact p1
  | exact plain_unary _ _ p1.1
  | exact plain_unary _ _ rfl
  | exact ⟨by simp [comE, comC, comL, comI, p1.1, p3, p5], rfl, rfl⟩)

theorem step47 : StepOK ComP 47 := prod8 rfl (fun t1 t2 t3 t4 t5 t6 t7 t8 v1 v2 v3 v4 v5 v6 v7 v8 v h1 h2 h3 h4 h5 h6 h7 h8 h => by
  obtain ⟨c1, p1⟩ := h1
  obtain ⟨u2, rfl, k2, rfl⟩ := h2
  have c2 := tokC_one k2 (by decide)
  obtain ⟨c3, p3⟩ := h3
  obtain ⟨u4, rfl, k4, rfl⟩ := h4
  have c4 := tokC_one k4 (by decide)
  obtain ⟨c5, p5⟩ := h5
  obtain ⟨u6, rfl, k6, rfl⟩ := h6
  have c6 := tokC_one k6 (by decide)
  obtain ⟨c7, p7⟩ := h7
  obtain ⟨u8, rfl, k8, rfl⟩ := h8
  have c8 := tokC_one k8 (by decide)
  cases h
  refine ⟨by simp only [tokC_append, List.append_nil, c1, c2, c3, c4, c5, c6, c7, c8], ?_⟩
  first
  | exact p1
  | exact plain_unary _ _ p1.1
  | exact plain_unary _ _ rfl
  | exact ⟨by simp [comE, comC, comL, comI, p1.1, p3, p5, p7], rfl, rfl⟩)

theorem step48 : StepOK ComP 48 := prod3 rfl (fun t1 t2 t3 v1 v2 v3 v h1 h2 h3 h => by
  obtain ⟨u1, rfl, k1, rfl⟩ := h1
  have c1 := tokC_one k1 (by decide)
  obtain ⟨c2, q2⟩ := h2
  have q2' := comL_plain q2
  obtain ⟨u3, rfl, k3, rfl⟩ := h3
  have c3 := tokC_one k3 (by decide)
  cases h
  refine ⟨by simp only [tokC_append, List.append_nil, c1, c2, c3], ?_⟩
  first
  | exact plain_unary _ _ rfl
  | exact ⟨by simp [comE, comC, comL, comI, q2'], rfl, rfl⟩)

theorem step49 : StepOK ComP 49 := prod4 rfl (fun t1 t2 t3 t4 v1 v2 v3 v4 v h1 h2 h3 h4 h => by
  obtain ⟨u1, rfl, k1, rfl⟩ := h1
  have c1 := tokC_one k1 (by decide)
  obtain ⟨c2, p2⟩ := h2
  obtain ⟨c3, q3⟩ := h3
  have q3' := comL_plain q3
  obtain ⟨u4, rfl, k4, rfl⟩ := h4
  have c4 := tokC_one k4 (by decide)
  cases h
  refine ⟨by simp only [tokC_append, List.append_nil, c1, c2, c3, c4], ?_⟩
  first
  | exact p2
  | exact plain_unary _ _ p2.1
  | exact plain_unary _ _ rfl
  | exact ⟨by simp [comE, comC, comL, comI, p2.1, q3'], rfl, rfl⟩)

theorem step50 : StepOK ComP 50 := prod4 rfl (fun t1 t2 t3 t4 v1 v2 v3 v4 v h1 h2 h3 h4 h => by
  obtain ⟨u1, rfl, k1, rfl⟩ := h1
  have c1 := tokC_one k1 (by decide)
  obtain ⟨c2, p2⟩ := h2
  obtain ⟨c3, q3⟩ := h3
  have q3' := comL_plain q3
  obtain ⟨u4, rfl, k4, rfl⟩ := h4
  have c4 := tokC_one k4 (by decide)
  cases h
  refine ⟨by simp only [tokC_append, List.append_nil, c1, c2, c3, c4], ?_⟩
  first
  | exact p2
  | exact plain_unary _ _ p2.1
  | exact plain_unary _ _ rfl
  | exact ⟨by simp [comE, comC, comL, comI, p2.1, q3'], rfl, rfl⟩)

theorem step51 : StepOK ComP 51 := prod3 rfl (fun t1 t2 t3 v1 v2 v3 v h1 h2 h3 h => by
  obtain ⟨u1, rfl, k1, rfl⟩ := h1
  have c1 := tokC_one k1 (by decide)
  obtain ⟨c2, q2⟩ := h2
  have q2' := comL_plain q2
  obtain ⟨u3, rfl, k3, rfl⟩ := h3
  have c3 := tokC_one k3 (by decide)
  cases h
  refine ⟨by simp only [tokC_append, List.append_nil, c1, c2, c3], ?_⟩
  first
  | exact plain_unary _ _ rfl
  | exact ⟨by simp [comE, comC, comL, comI, q2'], rfl, rfl⟩)

theorem step52 : StepOK ComP 52 := prod4 rfl (fun t1 t2 t3 t4 v1 v2 v3 v4 v h1 h2 h3 h4 h => by
  obtain ⟨u1, rfl, k1, rfl⟩ := h1
  have c1 := tokC_one k1 (by decide)
  obtain ⟨c2, q2⟩ := h2
  have q2' := comL_plain q2
  have c3 : tokC t3 = [] := h3
  obtain ⟨u4, rfl, k4, rfl⟩ := h4
  have c4 := tokC_one k4 (by decide)
  cases h
  refine ⟨by simp only [tokC_append, List.append_nil, c1, c2, c3, c4], ?_⟩
  first
  | exact plain_unary _ _ rfl
  | exact ⟨by simp [comE, comC, comL, comI, q2'], rfl, rfl⟩)

theorem step53 : StepOK ComP 53 := prod3 rfl (fun t1 t2 t3 v1 v2 v3 v h1 h2 h3 h => by
  obtain ⟨u1, rfl, k1, rfl⟩ := h1
  have c1 := tokC_one k1 (by decide)
  obtain ⟨c2, q2⟩ := h2
  have q2' := comL_plain q2
  obtain ⟨u3, rfl, k3, rfl⟩ := h3
  have c3 := tokC_one k3 (by decide)
  rw [sem54] at h
  cases h
  refine ⟨by simp only [tokC_append, List.append_nil, c1, c2, c3], ?_⟩
  unfold parenOrTuple
  dsimp only
  split
  · rename_i hx
    cases hl : v2.exprs with
    | nil => rw [hl] at hx; cases hx.1
    | cons x l =>
      rw [hl] at q2'
      have hq' : comE x = [] := by rw [comL, List.append_eq_nil_iff] at q2'; exact q2'.1
      exact ⟨by simp [comE, comC, hq'], rfl, rfl⟩
  · exact ⟨by simp [comE, comC, q2'], rfl, rfl⟩)

theorem step54 : StepOK ComP 54 := prod0 rfl (fun v h => by
  cases h
  refine ⟨(rfl : tokC [] = []), ?_⟩
  first
  | exact fun x hx => by simp at hx
  | exact nofun)

theorem step55 : StepOK ComP 55 := prod2 rfl (fun t1 t2 v1 v2 v h1 h2 h => by
  obtain ⟨c1, q1⟩ := h1
  have q1' := comL_plain q1
  have c2 : tokC t2 = [] := h2
  cases h
  refine ⟨by simp only [tokC_append, List.append_nil, c1, c2], ?_⟩
  first
  | exact q1
  | exact fun x hx => by simp at hx
  | exact nofun)

theorem step56 : StepOK ComP 56 := prod2 rfl (fun t1 t2 v1 v2 v h1 h2 h => by
  have c1 : tokC t1 = [] := h1
  obtain ⟨c2, p2⟩ := h2
  cases h
  refine ⟨by simp only [tokC_append, List.append_nil, c1, c2], ?_⟩
  first
  | exact fun x hx => by simp at hx; subst hx; exact p2
  | exact fun x hx => by simp at hx
  | exact nofun)

theorem step57 : StepOK ComP 57 := prod3 rfl (fun t1 t2 t3 v1 v2 v3 v h1 h2 h3 h => by
  obtain ⟨c1, q1⟩ := h1
  have q1' := comL_plain q1
  have c2 : tokC t2 = [] := h2
  obtain ⟨c3, p3⟩ := h3
  cases h
  refine ⟨by simp only [tokC_append, List.append_nil, c1, c2, c3], ?_⟩
  first
  | exact q1
  | exact plain_snoc q1 p3
  | exact fun x hx => by simp at hx; subst hx; exact p3
  | exact fun x hx => by simp at hx
  | exact nofun)

theorem step58 : StepOK ComP 58 := prod1 rfl (fun t1 v1 v h1 h => by
  obtain ⟨c1, p1⟩ := h1
  cases h
  refine ⟨c1, ?_⟩
  first
  | exact p1
  | exact plain_unary _ _ p1.1
  | exact plain_unary _ _ rfl
  | exact ⟨by simp [comE, comC, comL, comI, p1.1], rfl, rfl⟩)

theorem step59 : StepOK ComP 59 := prod3 rfl (fun t1 t2 t3 v1 v2 v3 v h1 h2 h3 h => by
  obtain ⟨c1, y1, z1, e1⟩ := h1
  have p1 : Plain v1.expr := by rw [e1]; exact ⟨rfl, rfl, rfl⟩
  obtain ⟨u2, rfl, k2, rfl⟩ := h2
  have c2 := tokC_one k2 (by decide)
  obtain ⟨c3, p3⟩ := h3
  cases h
  refine ⟨by simp only [tokC_append, List.append_nil, c1, c2, c3], ?_⟩
  first
  | exact p1
  | exact p3
  | exact plain_binary _ _ p1.1 p3.1
  | exact plain_tuple p1 p3
  | exact plain_unary _ _ rfl
  | exact ⟨by simp [comE, comC, comL, comI, p1.1, p3.1], rfl, rfl⟩)

theorem step60 : StepOK ComP 60 := prod2 rfl (fun t1 t2 v1 v2 v h1 h2 h => by
  obtain ⟨u1, rfl, k1, rfl⟩ := h1
  have c1 := tokC_one k1 (by decide)
  obtain ⟨c2, p2⟩ := h2
  cases h
  refine ⟨by simp only [tokC_append, List.append_nil, c1, c2], ?_⟩
  first
  | exact p2
  | exact plain_unary _ _ p2.1
  | exact plain_unary _ _ rfl
  | exact ⟨by simp [comE, comC, comL, comI, p2.1], rfl, rfl⟩)

theorem step61 : StepOK ComP 61 := prod2 rfl (fun t1 t2 v1 v2 v h1 h2 h => by
  obtain ⟨u1, rfl, k1, rfl⟩ := h1
  have c1 := tokC_one k1 (by decide)
  obtain ⟨c2, p2⟩ := h2
  cases h
  refine ⟨by simp only [tokC_append, List.append_nil, c1, c2], ?_⟩
  first
  | exact p2
  | exact plain_unary _ _ p2.1
  | exact plain_unary _ _ rfl
  | exact ⟨by simp [comE, comC, comL, comI, p2.1], rfl, rfl⟩)

theorem step62 : StepOK ComP 62 := prod1 rfl (fun t1 v1 v h1 h => by
  obtain ⟨c1, a1, b1⟩ := h1
  cases h
  exact ⟨c1, a1, b1⟩)

theorem step63 : StepOK ComP 63 := prod3 rfl (fun t1 t2 t3 v1 v2 v3 v h1 h2 h3 h => by
  obtain ⟨c1, a1, b1⟩ := h1
  obtain ⟨u2, rfl, k2, rfl⟩ := h2
  have c2 := tokC_one k2 (by decide)
  obtain ⟨c3, a3, b3⟩ := h3
  cases h
  exact ⟨by simp only [tokC_append, List.append_nil, c1, c2, c3], by simp [comI_append, a1, a3], by simp [comI_append, b1, b3]⟩)

theorem step64 : StepOK ComP 64 := prod1 rfl (fun t1 v1 v h1 h => by
  obtain ⟨c1, y1, z1, o1, m1, n1, e1⟩ := h1
  have p1 : Plain v1.expr := by rw [e1]; exact ⟨rfl, rfl, rfl⟩
  cases h
  exact ⟨c1, rfl, rfl⟩)

theorem step65 : StepOK ComP 65 := prod3 rfl (fun t1 t2 t3 v1 v2 v3 v h1 h2 h3 h => by
  obtain ⟨c1, y1, z1, e1⟩ := h1
  have p1 : Plain v1.expr := by rw [e1]; exact ⟨rfl, rfl, rfl⟩
  obtain ⟨u2, rfl, k2, rfl⟩ := h2
  have c2 := tokC_one k2 (by decide)
  obtain ⟨c3, y3, z3, o3, m3, n3, e3⟩ := h3
  have p3 : Plain v3.expr := by rw [e3]; exact ⟨rfl, rfl, rfl⟩
  cases h
  exact ⟨by simp only [tokC_append, List.append_nil, c1, c2, c3], rfl, by simp [e1, asIdent, comI, comC]⟩)

theorem step66 : StepOK ComP 66 := prod0 rfl (fun v h => by
  cases h
  refine ⟨(rfl : tokC [] = []), ?_⟩
  first
  | exact fun x hx => by simp at hx
  | exact nofun)

theorem step67 : StepOK ComP 67 := prod2 rfl (fun t1 t2 v1 v2 v h1 h2 h => by
  obtain ⟨c1, q1⟩ := h1
  have q1' := comL_plain q1
  have c2 : tokC t2 = [] := h2
  cases h
  refine ⟨by simp only [tokC_append, List.append_nil, c1, c2], ?_⟩
  first
  | exact q1
  | exact fun x hx => by simp at hx
  | exact nofun)

theorem step68 : StepOK ComP 68 := prod0 rfl (fun v h => by
  cases h
  refine ⟨(rfl : tokC [] = []), ?_⟩
  first
  | exact fun x hx => by simp at hx
  | exact nofun)

theorem step69 : StepOK ComP 69 := prod2 rfl (fun t1 t2 v1 v2 v h1 h2 h => by
  obtain ⟨c1, q1⟩ := h1
  have q1' := comL_plain q1
  have c2 : tokC t2 = [] := h2
  cases h
  refine ⟨by simp only [tokC_append, List.append_nil, c1, c2], ?_⟩
  first
  | exact q1
  | exact fun x hx => by simp at hx
  | exact nofun)

theorem step70 : StepOK ComP 70 := prod1 rfl (fun t1 v1 v h1 h => by
  obtain ⟨c1, p1⟩ := h1
  cases h
  refine ⟨c1, ?_⟩
  first
  | exact fun x hx => by simp at hx; subst hx; exact p1
  | exact fun x hx => by simp at hx
  | exact nofun)

theorem step71 : StepOK ComP 71 := prod3 rfl (fun t1 t2 t3 v1 v2 v3 v h1 h2 h3 h => by
  obtain ⟨c1, q1⟩ := h1
  have q1' := comL_plain q1
  obtain ⟨u2, rfl, k2, rfl⟩ := h2
  have c2 := tokC_one k2 (by decide)
  obtain ⟨c3, p3⟩ := h3
  cases h
  refine ⟨by simp only [tokC_append, List.append_nil, c1, c2, c3], ?_⟩
  first
  | exact q1
  | exact plain_snoc q1 p3
  | exact fun x hx => by simp at hx; subst hx; exact p3
  | exact fun x hx => by simp at hx
  | exact nofun)

theorem step72 : StepOK ComP 72 := prod1 rfl (fun t1 v1 v h1 h => by
  obtain ⟨c1, p1⟩ := h1
  cases h
  refine ⟨c1, ?_⟩
  first
  | exact fun x hx => by simp at hx; subst hx; exact p1
  | exact fun x hx => by simp at hx
  | exact nofun)

theorem step73 : StepOK ComP 73 := prod3 rfl (fun t1 t2 t3 v1 v2 v3 v h1 h2 h3 h => by
  obtain ⟨c1, q1⟩ := h1
  have q1' := comL_plain q1
  obtain ⟨u2, rfl, k2, rfl⟩ := h2
  have c2 := tokC_one k2 (by decide)
  obtain ⟨c3, p3⟩ := h3
  cases h
  refine ⟨by simp only [tokC_append, List.append_nil, c1, c2, c3], ?_⟩
  first
  | exact q1
  | exact plain_snoc q1 p3
  | exact fun x hx => by simp at hx; subst hx; exact p3
  | exact fun x hx => by simp at hx
  | exact nofun)

theorem step74 : StepOK ComP 74 := prod1 rfl (fun t1 v1 v h1 h => by
  obtain ⟨c1, y1, z1, e1⟩ := h1
  have p1 : Plain v1.expr := by rw [e1]; exact ⟨rfl, rfl, rfl⟩
  cases h
  refine ⟨c1, ?_⟩
  first
  | exact p1
  | exact plain_unary _ _ p1.1
  | exact plain_unary _ _ rfl
  | exact ⟨by simp [comE, comC, comL, comI, p1.1], rfl, rfl⟩)

theorem step75 : StepOK ComP 75 := prod3 rfl (fun t1 t2 t3 v1 v2 v3 v h1 h2 h3 h => by
  obtain ⟨c1, y1, z1, e1⟩ := h1
  have p1 : Plain v1.expr := by rw [e1]; exact ⟨rfl, rfl, rfl⟩
  obtain ⟨u2, rfl, k2, rfl⟩ := h2
  have c2 := tokC_one k2 (by decide)
  obtain ⟨c3, p3⟩ := h3
  cases h
  refine ⟨by simp only [tokC_append, List.append_nil, c1, c2, c3], ?_⟩
  first
  | exact p1
  | exact p3
  | exact plain_binary _ _ p1.1 p3.1
  | exact plain_tuple p1 p3
  | exact plain_unary _ _ rfl
  | exact ⟨by simp [comE, comC, comL, comI, p1.1, p3.1], rfl, rfl⟩)

theorem step76 : StepOK ComP 76 := prod2 rfl (fun t1 t2 v1 v2 v h1 h2 h => by
  obtain ⟨u1, rfl, k1, rfl⟩ := h1
  have c1 := tokC_one k1 (by decide)
  obtain ⟨c2, y2, z2, e2⟩ := h2
  have p2 : Plain v2.expr := by rw [e2]; exact ⟨rfl, rfl, rfl⟩
  cases h
  refine ⟨by simp only [tokC_append, List.append_nil, c1, c2], ?_⟩
  first
  | exact p2
  | exact plain_unary _ _ p2.1
  | exact plain_unary _ _ rfl
  | exact ⟨by simp [comE, comC, comL, comI, p2.1], rfl, rfl⟩)

theorem step77 : StepOK ComP 77 := prod1 rfl (fun t1 v1 v h1 h => by
  obtain ⟨u1, rfl, k1, rfl⟩ := h1
  have c1 := tokC_one k1 (by decide)
  cases h
  refine ⟨c1, ?_⟩
  first
  | exact plain_unary _ _ rfl
  | exact ⟨by simp [comE, comC, comL, comI], rfl, rfl⟩)

theorem step78 : StepOK ComP 78 := prod2 rfl (fun t1 t2 v1 v2 v h1 h2 h => by
  obtain ⟨u1, rfl, k1, rfl⟩ := h1
  have c1 := tokC_one k1 (by decide)
  obtain ⟨c2, y2, z2, e2⟩ := h2
  have p2 : Plain v2.expr := by rw [e2]; exact ⟨rfl, rfl, rfl⟩
  cases h
  refine ⟨by simp only [tokC_append, List.append_nil, c1, c2], ?_⟩
  first
  | exact p2
  | exact plain_unary _ _ p2.1
  | exact plain_unary _ _ rfl
  | exact ⟨by simp [comE, comC, comL, comI, p2.1], rfl, rfl⟩)

theorem step79 : StepOK ComP 79 := prod1 rfl (fun t1 v1 v h1 h => by
  obtain ⟨c1, p1⟩ := h1
  cases h
  refine ⟨c1, ?_⟩
  first
  | exact p1
  | exact plain_unary _ _ p1.1
  | exact plain_unary _ _ rfl
  | exact ⟨by simp [comE, comC, comL, comI, p1.1], rfl, rfl⟩)

theorem step80 : StepOK ComP 80 := prod3 rfl (fun t1 t2 t3 v1 v2 v3 v h1 h2 h3 h => by
  obtain ⟨c1, y1, z1, e1⟩ := h1
  have p1 : Plain v1.expr := by rw [e1]; exact ⟨rfl, rfl, rfl⟩
  obtain ⟨u2, rfl, k2, rfl⟩ := h2
  have c2 := tokC_one k2 (by decide)
  obtain ⟨c3, p3⟩ := h3
  cases h
  refine ⟨by simp only [tokC_append, List.append_nil, c1, c2, c3], ?_⟩
  first
  | exact ⟨by simp [e1, mkTyped, comE, comC, p3.1], by simp [e1, mkTyped, isCommentBlock], by simp [e1, mkTyped, okE]⟩)

theorem step81 : StepOK ComP 81 := prod5 rfl (fun t1 t2 t3 t4 t5 v1 v2 v3 v4 v5 v h1 h2 h3 h4 h5 h => by
  obtain ⟨c1, y1, z1, e1⟩ := h1
  have p1 : Plain v1.expr := by rw [e1]; exact ⟨rfl, rfl, rfl⟩
  obtain ⟨u2, rfl, k2, rfl⟩ := h2
  have c2 := tokC_one k2 (by decide)
  obtain ⟨c3, p3⟩ := h3
  obtain ⟨u4, rfl, k4, rfl⟩ := h4
  have c4 := tokC_one k4 (by decide)
  obtain ⟨c5, p5⟩ := h5
  cases h
  refine ⟨by simp only [tokC_append, List.append_nil, c1, c2, c3, c4, c5], ?_⟩
  first
  | exact plain_binary _ _ (by simp [e1, mkTyped, comE, comC, p3.1]) p5.1)

theorem step82 : StepOK ComP 82 := prod4 rfl (fun t1 t2 t3 t4 v1 v2 v3 v4 v h1 h2 h3 h4 h => by
  obtain ⟨u1, rfl, k1, rfl⟩ := h1
  have c1 := tokC_one k1 (by decide)
  obtain ⟨c2, y2, z2, e2⟩ := h2
  have p2 : Plain v2.expr := by rw [e2]; exact ⟨rfl, rfl, rfl⟩
  obtain ⟨u3, rfl, k3, rfl⟩ := h3
  have c3 := tokC_one k3 (by decide)
  obtain ⟨c4, p4⟩ := h4
  cases h
  refine ⟨by simp only [tokC_append, List.append_nil, c1, c2, c3, c4], ?_⟩
  first
  | exact plain_unary _ _ (by simp [e2, mkTyped, comE, comC, p4.1]))

theorem step83 : StepOK ComP 83 := prod4 rfl (fun t1 t2 t3 t4 v1 v2 v3 v4 v h1 h2 h3 h4 h => by
  obtain ⟨u1, rfl, k1, rfl⟩ := h1
  have c1 := tokC_one k1 (by decide)
  obtain ⟨c2, y2, z2, e2⟩ := h2
  have p2 : Plain v2.expr := by rw [e2]; exact ⟨rfl, rfl, rfl⟩
  obtain ⟨u3, rfl, k3, rfl⟩ := h3
  have c3 := tokC_one k3 (by decide)
  obtain ⟨c4, p4⟩ := h4
  cases h
  refine ⟨by simp only [tokC_append, List.append_nil, c1, c2, c3, c4], ?_⟩
  first
  | exact plain_unary _ _ (by simp [e2, mkTyped, comE, comC, p4.1]))

theorem step84 : StepOK ComP 84 := prod1 rfl (fun t1 v1 v h1 h => by
  obtain ⟨c1, p1⟩ := h1
  cases h
  refine ⟨c1, ?_⟩
  first
  | exact p1
  | exact plain_unary _ _ p1.1
  | exact plain_unary _ _ rfl
  | exact ⟨by simp [comE, comC, comL, comI, p1.1], rfl, rfl⟩)

theorem step85 : StepOK ComP 85 := prod3 rfl (fun t1 t2 t3 v1 v2 v3 v h1 h2 h3 h => by
  obtain ⟨c1, p1⟩ := h1
  obtain ⟨u2, rfl, k2, rfl⟩ := h2
  have c2 := tokC_one k2 (by decide)
  obtain ⟨c3, p3⟩ := h3
  cases h
  refine ⟨by simp only [tokC_append, List.append_nil, c1, c2, c3], ?_⟩
  first
  | exact p1
  | exact p3
  | exact plain_binary _ _ p1.1 p3.1
  | exact plain_tuple p1 p3
  | exact plain_unary _ _ rfl
  | exact ⟨by simp [comE, comC, comL, comI, p1.1, p3.1], rfl, rfl⟩)

theorem step86 : StepOK ComP 86 := prod0 rfl (fun v h => by
  cases h
  exact ⟨(rfl : tokC [] = []), rfl⟩)

theorem step87 : StepOK ComP 87 := prod1 rfl (fun t1 v1 v h1 h => by
  obtain ⟨c1, p1⟩ := h1
  cases h
  exact ⟨c1, p1.1⟩)

theorem step88 : StepOK ComP 88 := prod1 rfl (fun t1 v1 v h1 h => by
  obtain ⟨c1, p1⟩ := h1
  cases h
  refine ⟨c1, ?_⟩
  first
  | exact p1
  | exact plain_unary _ _ p1.1
  | exact plain_unary _ _ rfl
  | exact ⟨by simp [comE, comC, comL, comI, p1.1], rfl, rfl⟩)

theorem step89 : StepOK ComP 89 := prod4 rfl (fun t1 t2 t3 t4 v1 v2 v3 v4 v h1 h2 h3 h4 h => by
  obtain ⟨u1, rfl, k1, rfl⟩ := h1
  have c1 := tokC_one k1 (by decide)
  obtain ⟨c2, q2⟩ := h2
  have q2' := comL_plain q2
  obtain ⟨u3, rfl, k3, rfl⟩ := h3
  have c3 := tokC_one k3 (by decide)
  obtain ⟨c4, p4⟩ := h4
  cases h
  refine ⟨by simp only [tokC_append, List.append_nil, c1, c2, c3, c4], ?_⟩
  first
  | exact p4
  | exact plain_unary _ _ p4.1
  | exact plain_unary _ _ rfl
  | exact ⟨by simp [comE, comC, comL, comI, q2', p4.1], rfl, rfl⟩)

theorem step90 : StepOK ComP 90 := prod2 rfl (fun t1 t2 v1 v2 v h1 h2 h => by
  obtain ⟨u1, rfl, k1, rfl⟩ := h1
  have c1 := tokC_one k1 (by decide)
  obtain ⟨c2, p2⟩ := h2
  cases h
  refine ⟨by simp only [tokC_append, List.append_nil, c1, c2], ?_⟩
  first
  | exact p2
  | exact plain_unary _ _ p2.1
  | exact plain_unary _ _ rfl
  | exact ⟨by simp [comE, comC, comL, comI, p2.1], rfl, rfl⟩)

theorem step91 : StepOK ComP 91 := prod2 rfl (fun t1 t2 v1 v2 v h1 h2 h => by
  obtain ⟨u1, rfl, k1, rfl⟩ := h1
  have c1 := tokC_one k1 (by decide)
  obtain ⟨c2, p2⟩ := h2
  cases h
  refine ⟨by simp only [tokC_append, List.append_nil, c1, c2], ?_⟩
  first
  | exact p2
  | exact plain_unary _ _ p2.1
  | exact plain_unary _ _ rfl
  | exact ⟨by simp [comE, comC, comL, comI, p2.1], rfl, rfl⟩)

theorem step92 : StepOK ComP 92 := prod2 rfl (fun t1 t2 v1 v2 v h1 h2 h => by
  obtain ⟨u1, rfl, k1, rfl⟩ := h1
  have c1 := tokC_one k1 (by decide)
  obtain ⟨c2, p2⟩ := h2
  cases h
  refine ⟨by simp only [tokC_append, List.append_nil, c1, c2], ?_⟩
  first
  | exact p2
  | exact plain_unary _ _ p2.1
  | exact plain_unary _ _ rfl
  | exact ⟨by simp [comE, comC, comL, comI, p2.1], rfl, rfl⟩)

theorem step93 : StepOK ComP 93 := prod2 rfl (fun t1 t2 v1 v2 v h1 h2 h => by
  obtain ⟨u1, rfl, k1, rfl⟩ := h1
  have c1 := tokC_one k1 (by decide)
  obtain ⟨c2, p2⟩ := h2
  cases h
  refine ⟨by simp only [tokC_append, List.append_nil, c1, c2], ?_⟩
  first
  | exact p2
  | exact plain_unary _ _ p2.1
  | exact plain_unary _ _ rfl
  | exact ⟨by simp [comE, comC, comL, comI, p2.1], rfl, rfl⟩)

theorem step94 : StepOK ComP 94 := prod3 rfl (fun t1 t2 t3 v1 v2 v3 v h1 h2 h3 h => by
  obtain ⟨c1, p1⟩ := h1
  obtain ⟨u2, rfl, k2, rfl⟩ := h2
  have c2 := tokC_one k2 (by decide)
  obtain ⟨c3, p3⟩ := h3
  cases h
  refine ⟨by simp only [tokC_append, List.append_nil, c1, c2, c3], ?_⟩
  first
  | exact p1
  | exact p3
  | exact plain_binary _ _ p1.1 p3.1
  | exact plain_tuple p1 p3
  | exact plain_unary _ _ rfl
  | exact ⟨by simp [comE, comC, comL, comI, p1.1, p3.1], rfl, rfl⟩)

theorem step95 : StepOK ComP 95 := prod3 rfl (fun t1 t2 t3 v1 v2 v3 v h1 h2 h3 h => by
  obtain ⟨c1, p1⟩ := h1
  obtain ⟨u2, rfl, k2, rfl⟩ := h2
  have c2 := tokC_one k2 (by decide)
  obtain ⟨c3, p3⟩ := h3
  cases h
  refine ⟨by simp only [tokC_append, List.append_nil, c1, c2, c3], ?_⟩
  first
  | exact p1
  | exact p3
  | exact plain_binary _ _ p1.1 p3.1
  | exact plain_tuple p1 p3
  | exact plain_unary _ _ rfl
  | exact ⟨by simp [comE, comC, comL, comI, p1.1, p3.1], rfl, rfl⟩)

theorem step96 : StepOK ComP 96 := prod3 rfl (fun t1 t2 t3 v1 v2 v3 v h1 h2 h3 h => by
  obtain ⟨c1, p1⟩ := h1
  obtain ⟨u2, rfl, k2, rfl⟩ := h2
  have c2 := tokC_one k2 (by decide)
  obtain ⟨c3, p3⟩ := h3
  cases h
  refine ⟨by simp only [tokC_append, List.append_nil, c1, c2, c3], ?_⟩
  first
  | exact p1
  | exact p3
  | exact plain_binary _ _ p1.1 p3.1
  | exact plain_tuple p1 p3
  | exact plain_unary _ _ rfl
  | exact ⟨by simp [comE, comC, comL, comI, p1.1, p3.1], rfl, rfl⟩)

theorem step97 : StepOK ComP 97 := prod3 rfl (fun t1 t2 t3 v1 v2 v3 v h1 h2 h3 h => by
  obtain ⟨c1, p1⟩ := h1
  obtain ⟨u2, rfl, k2, rfl⟩ := h2
  have c2 := tokC_one k2 (by decide)
  obtain ⟨c3, p3⟩ := h3
  cases h
  refine ⟨by simp only [tokC_append, List.append_nil, c1, c2, c3], ?_⟩
  first
  | exact p1
  | exact p3
  | exact plain_binary _ _ p1.1 p3.1
  | exact plain_tuple p1 p3
  | exact plain_unary _ _ rfl
  | exact ⟨by simp [comE, comC, comL, comI, p1.1, p3.1], rfl, rfl⟩)

theorem step98 : StepOK ComP 98 := prod3 rfl (fun t1 t2 t3 v1 v2 v3 v h1 h2 h3 h => by
  obtain ⟨c1, p1⟩ := h1
  obtain ⟨u2, rfl, k2, rfl⟩ := h2
  have c2 := tokC_one k2 (by decide)
  obtain ⟨c3, p3⟩ := h3
  cases h
  refine ⟨by simp only [tokC_append, List.append_nil, c1, c2, c3], ?_⟩
  first
  | exact p1
  | exact p3
  | exact plain_binary _ _ p1.1 p3.1
  | exact plain_tuple p1 p3
  | exact plain_unary _ _ rfl
  | exact ⟨by simp [comE, comC, comL, comI, p1.1, p3.1], rfl, rfl⟩)

theorem step99 : StepOK ComP 99 := prod3 rfl (fun t1 t2 t3 v1 v2 v3 v h1 h2 h3 h => by
  obtain ⟨c1, p1⟩ := h1
  obtain ⟨u2, rfl, k2, rfl⟩ := h2
  have c2 := tokC_one k2 (by decide)
  obtain ⟨c3, p3⟩ := h3
  cases h
  refine ⟨by simp only [tokC_append, List.append_nil, c1, c2, c3], ?_⟩
  first
  | exact p1
  | exact p3
  | exact plain_binary _ _ p1.1 p3.1
  | exact plain_tuple p1 p3
  | exact plain_unary _ _ rfl
  | exact ⟨by simp [comE, comC, comL, comI, p1.1, p3.1], rfl, rfl⟩)

theorem step100 : StepOK ComP 100 := prod3 rfl (fun t1 t2 t3 v1 v2 v3 v h1 h2 h3 h => by
  obtain ⟨c1, p1⟩ := h1
  obtain ⟨u2, rfl, k2, rfl⟩ := h2
  have c2 := tokC_one k2 (by decide)
  obtain ⟨c3, p3⟩ := h3
  cases h
  refine ⟨by simp only [tokC_append, List.append_nil, c1, c2, c3], ?_⟩
  first
  | exact p1
  | exact p3
  | exact plain_binary _ _ p1.1 p3.1
  | exact plain_tuple p1 p3
  | exact plain_unary _ _ rfl
  | exact ⟨by simp [comE, comC, comL, comI, p1.1, p3.1], rfl, rfl⟩)

theorem step101 : StepOK ComP 101 := prod3 rfl (fun t1 t2 t3 v1 v2 v3 v h1 h2 h3 h => by
  obtain ⟨c1, p1⟩ := h1
  obtain ⟨u2, rfl, k2, rfl⟩ := h2
  have c2 := tokC_one k2 (by decide)
  obtain ⟨c3, p3⟩ := h3
  cases h
  refine ⟨by simp only [tokC_append, List.append_nil, c1, c2, c3], ?_⟩
  first
  | exact p1
  | exact p3
  | exact plain_binary _ _ p1.1 p3.1
  | exact plain_tuple p1 p3
  | exact plain_unary _ _ rfl
  | exact ⟨by simp [comE, comC, comL, comI, p1.1, p3.1], rfl, rfl⟩)

theorem step102 : StepOK ComP 102 := prod3 rfl (fun t1 t2 t3 v1 v2 v3 v h1 h2 h3 h => by
  obtain ⟨c1, p1⟩ := h1
  obtain ⟨u2, rfl, k2, rfl⟩ := h2
  have c2 := tokC_one k2 (by decide)
  obtain ⟨c3, p3⟩ := h3
  cases h
  refine ⟨by simp only [tokC_append, List.append_nil, c1, c2, c3], ?_⟩
  first
  | exact p1
  | exact p3
  | exact plain_binary _ _ p1.1 p3.1
  | exact plain_tuple p1 p3
  | exact plain_unary _ _ rfl
  | exact ⟨by simp [comE, comC, comL, comI, p1.1, p3.1], rfl, rfl⟩)

theorem step103 : StepOK ComP 103 := prod3 rfl (fun t1 t2 t3 v1 v2 v3 v h1 h2 h3 h => by
  obtain ⟨c1, p1⟩ := h1
  obtain ⟨u2, rfl, k2, rfl⟩ := h2
  have c2 := tokC_one k2 (by decide)
  obtain ⟨c3, p3⟩ := h3
  cases h
  refine ⟨by simp only [tokC_append, List.append_nil, c1, c2, c3], ?_⟩
  first
  | exact p1
  | exact p3
  | exact plain_binary _ _ p1.1 p3.1
  | exact plain_tuple p1 p3
  | exact plain_unary _ _ rfl
  | exact ⟨by simp [comE, comC, comL, comI, p1.1, p3.1], rfl, rfl⟩)

theorem step104 : StepOK ComP 104 := prod3 rfl (fun t1 t2 t3 v1 v2 v3 v h1 h2 h3 h => by
  obtain ⟨c1, p1⟩ := h1
  obtain ⟨u2, rfl, k2, rfl⟩ := h2
  have c2 := tokC_one k2 (by decide)
  obtain ⟨c3, p3⟩ := h3
  cases h
  refine ⟨by simp only [tokC_append, List.append_nil, c1, c2, c3], ?_⟩
  first
  | exact p1
  | exact p3
  | exact plain_binary _ _ p1.1 p3.1
  | exact plain_tuple p1 p3
  | exact plain_unary _ _ rfl
  | exact ⟨by simp [comE, comC, comL, comI, p1.1, p3.1], rfl, rfl⟩)

theorem step105 : StepOK ComP 105 := prod3 rfl (fun t1 t2 t3 v1 v2 v3 v h1 h2 h3 h => by
  obtain ⟨c1, p1⟩ := h1
  obtain ⟨u2, rfl, k2, rfl⟩ := h2
  have c2 := tokC_one k2 (by decide)
  obtain ⟨c3, p3⟩ := h3
  cases h
  refine ⟨by simp only [tokC_append, List.append_nil, c1, c2, c3], ?_⟩
  first
  | exact p1
  | exact p3
  | exact plain_binary _ _ p1.1 p3.1
  | exact plain_tuple p1 p3
  | exact plain_unary _ _ rfl
  | exact ⟨by simp [comE, comC, comL, comI, p1.1, p3.1], rfl, rfl⟩)

theorem step106 : StepOK ComP 106 := prod3 rfl (fun t1 t2 t3 v1 v2 v3 v h1 h2 h3 h => by
  obtain ⟨c1, p1⟩ := h1
  obtain ⟨u2, rfl, k2, rfl⟩ := h2
  have c2 := tokC_one k2 (by decide)
  obtain ⟨c3, p3⟩ := h3
  cases h
  refine ⟨by simp only [tokC_append, List.append_nil, c1, c2, c3], ?_⟩
  first
  | exact p1
  | exact p3
  | exact plain_binary _ _ p1.1 p3.1
  | exact plain_tuple p1 p3
  | exact plain_unary _ _ rfl
  | exact ⟨by simp [comE, comC, comL, comI, p1.1, p3.1], rfl, rfl⟩)

theorem step107 : StepOK ComP 107 := prod4 rfl (fun t1 t2 t3 t4 v1 v2 v3 v4 v h1 h2 h3 h4 h => by
  obtain ⟨c1, p1⟩ := h1
  obtain ⟨u2, rfl, k2, rfl⟩ := h2
  have c2 := tokC_one k2 (by decide)
  obtain ⟨u3, rfl, k3, rfl⟩ := h3
  have c3 := tokC_one k3 (by decide)
  obtain ⟨c4, p4⟩ := h4
  cases h
  refine ⟨by simp only [tokC_append, List.append_nil, c1, c2, c3, c4], ?_⟩
  first
  | exact plain_binary _ b!"not in" p1.1 p4.1
  | exact plain_unary _ _ rfl
  | exact ⟨by simp [comE, comC, comL, comI, p1.1, p4.1], rfl, rfl⟩)

theorem step108 : StepOK ComP 108 := prod3 rfl (fun t1 t2 t3 v1 v2 v3 v h1 h2 h3 h => by
  obtain ⟨c1, p1⟩ := h1
  obtain ⟨u2, rfl, k2, rfl⟩ := h2
  have c2 := tokC_one k2 (by decide)
  obtain ⟨c3, p3⟩ := h3
  cases h
  refine ⟨by simp only [tokC_append, List.append_nil, c1, c2, c3], ?_⟩
  first
  | exact p1
  | exact p3
  | exact plain_binary _ _ p1.1 p3.1
  | exact plain_tuple p1 p3
  | exact plain_unary _ _ rfl
  | exact ⟨by simp [comE, comC, comL, comI, p1.1, p3.1], rfl, rfl⟩)

theorem step109 : StepOK ComP 109 := prod3 rfl (fun t1 t2 t3 v1 v2 v3 v h1 h2 h3 h => by
  obtain ⟨c1, p1⟩ := h1
  obtain ⟨u2, rfl, k2, rfl⟩ := h2
  have c2 := tokC_one k2 (by decide)
  obtain ⟨c3, p3⟩ := h3
  cases h
  refine ⟨by simp only [tokC_append, List.append_nil, c1, c2, c3], ?_⟩
  first
  | exact p1
  | exact p3
  | exact plain_binary _ _ p1.1 p3.1
  | exact plain_tuple p1 p3
  | exact plain_unary _ _ rfl
  | exact ⟨by simp [comE, comC, comL, comI, p1.1, p3.1], rfl, rfl⟩)

theorem step110 : StepOK ComP 110 := prod3 rfl (fun t1 t2 t3 v1 v2 v3 v h1 h2 h3 h => by
  obtain ⟨c1, p1⟩ := h1
  obtain ⟨u2, rfl, k2, rfl⟩ := h2
  have c2 := tokC_one k2 (by decide)
  obtain ⟨c3, p3⟩ := h3
  cases h
  refine ⟨by simp only [tokC_append, List.append_nil, c1, c2, c3], ?_⟩
  first
  | exact p1
  | exact p3
  | exact plain_binary _ _ p1.1 p3.1
  | exact plain_tuple p1 p3
  | exact plain_unary _ _ rfl
  | exact ⟨by simp [comE, comC, comL, comI, p1.1, p3.1], rfl, rfl⟩)

theorem step111 : StepOK ComP 111 := prod3 rfl (fun t1 t2 t3 v1 v2 v3 v h1 h2 h3 h => by
  obtain ⟨c1, p1⟩ := h1
  obtain ⟨u2, rfl, k2, rfl⟩ := h2
  have c2 := tokC_one k2 (by decide)
  obtain ⟨c3, p3⟩ := h3
  cases h
  refine ⟨by simp only [tokC_append, List.append_nil, c1, c2, c3], ?_⟩
  first
  | exact p1
  | exact p3
  | exact plain_binary _ _ p1.1 p3.1
  | exact plain_tuple p1 p3
  | exact plain_unary _ _ rfl
  | exact ⟨by simp [comE, comC, comL, comI, p1.1, p3.1], rfl, rfl⟩)

theorem step112 : StepOK ComP 112 := prod3 rfl (fun t1 t2 t3 v1 v2 v3 v h1 h2 h3 h => by
  obtain ⟨c1, p1⟩ := h1
  obtain ⟨u2, rfl, k2, rfl⟩ := h2
  have c2 := tokC_one k2 (by decide)
  obtain ⟨c3, p3⟩ := h3
  cases h
  refine ⟨by simp only [tokC_append, List.append_nil, c1, c2, c3], ?_⟩
  first
  | exact p1
  | exact p3
  | exact plain_binary _ _ p1.1 p3.1
  | exact plain_tuple p1 p3
  | exact plain_unary _ _ rfl
  | exact ⟨by simp [comE, comC, comL, comI, p1.1, p3.1], rfl, rfl⟩)

theorem step113 : StepOK ComP 113 := prod3 rfl (fun t1 t2 t3 v1 v2 v3 v h1 h2 h3 h => by
  obtain ⟨c1, p1⟩ := h1
  obtain ⟨u2, rfl, k2, rfl⟩ := h2
  have c2 := tokC_one k2 (by decide)
  obtain ⟨c3, p3⟩ := h3
  cases h
  refine ⟨by simp only [tokC_append, List.append_nil, c1, c2, c3], ?_⟩
  first
  | exact p1
  | exact p3
  | exact plain_binary _ _ p1.1 p3.1
  | exact plain_tuple p1 p3
  | exact plain_unary _ _ rfl
  | exact ⟨by simp [comE, comC, comL, comI, p1.1, p3.1], rfl, rfl⟩)

theorem step114 : StepOK ComP 114 := prod3 rfl (fun t1 t2 t3 v1 v2 v3 v h1 h2 h3 h => by
  obtain ⟨c1, p1⟩ := h1
  obtain ⟨u2, rfl, k2, rfl⟩ := h2
  have c2 := tokC_one k2 (by decide)
  obtain ⟨c3, p3⟩ := h3
  cases h
  refine ⟨by simp only [tokC_append, List.append_nil, c1, c2, c3], ?_⟩
  first
  | exact p1
  | exact p3
  | exact plain_binary _ _ p1.1 p3.1
  | exact plain_tuple p1 p3
  | exact plain_unary _ _ rfl
  | exact ⟨by simp [comE, comC, comL, comI, p1.1, p3.1], rfl, rfl⟩)

theorem step115 : StepOK ComP 115 := prod3 rfl (fun t1 t2 t3 v1 v2 v3 v h1 h2 h3 h => by
  obtain ⟨c1, p1⟩ := h1
  obtain ⟨u2, rfl, k2, rfl⟩ := h2
  have c2 := tokC_one k2 (by decide)
  obtain ⟨c3, p3⟩ := h3
  rw [sem116] at h
  cases h
  refine ⟨by simp only [tokC_append, List.append_nil, c1, c2, c3], ?_⟩
  unfold mkIs
  dsimp only
  have hp := p3.1
  split
  · rename_i c o op x hx
    rw [hx] at hp
    have hx' : comE x = [] := by simp only [comE, List.append_eq_nil_iff] at hp; exact hp.2
    split
    · exact plain_binary _ _ p1.1 hx'
    · exact plain_binary _ _ p1.1 hp
  · exact plain_binary _ _ p1.1 hp)

theorem step116 : StepOK ComP 116 := prod5 rfl (fun t1 t2 t3 t4 t5 v1 v2 v3 v4 v5 v h1 h2 h3 h4 h5 h => by
  obtain ⟨c1, p1⟩ := h1
  obtain ⟨u2, rfl, k2, rfl⟩ := h2
  have c2 := tokC_one k2 (by decide)
  obtain ⟨c3, p3⟩ := h3
  obtain ⟨u4, rfl, k4, rfl⟩ := h4
  have c4 := tokC_one k4 (by decide)
  obtain ⟨c5, p5⟩ := h5
  cases h
  refine ⟨by simp only [tokC_append, List.append_nil, c1, c2, c3, c4, c5], ?_⟩
  first
  | exact p1
  | exact p3
  | exact p5
  | exact plain_unary _ _ rfl
  | exact ⟨by simp [comE, comC, comL, comI, p1.1, p3.1, p5.1], rfl, rfl⟩)

theorem step117 : StepOK ComP 117 := prod1 rfl (fun t1 v1 v h1 h => by
  obtain ⟨c1, p1⟩ := h1
  cases h
  refine ⟨c1, ?_⟩
  first
  | exact fun x hx => by simp at hx; subst hx; exact p1
  | exact fun x hx => by simp at hx
  | exact nofun)

theorem step118 : StepOK ComP 118 := prod3 rfl (fun t1 t2 t3 v1 v2 v3 v h1 h2 h3 h => by
  obtain ⟨c1, q1⟩ := h1
  have q1' := comL_plain q1
  have c2 : tokC t2 = [] := h2
  obtain ⟨c3, p3⟩ := h3
  cases h
  refine ⟨by simp only [tokC_append, List.append_nil, c1, c2, c3], ?_⟩
  first
  | exact q1
  | exact plain_snoc q1 p3
  | exact fun x hx => by simp at hx; subst hx; exact p3
  | exact fun x hx => by simp at hx
  | exact nofun)

theorem step119 : StepOK ComP 119 := prod0 rfl (fun v h => by
  cases h
  exact ⟨(rfl : tokC [] = []), rfl⟩)

theorem step120 : StepOK ComP 120 := prod1 rfl (fun t1 v1 v h1 h => by
  obtain ⟨c1, p1⟩ := h1
  cases h
  exact ⟨c1, p1.1⟩)

theorem step121 : StepOK ComP 121 := prod0 rfl (fun v h => by
  cases h
  refine ⟨(rfl : tokC [] = []), ?_⟩
  first
  | exact fun x hx => by simp at hx
  | exact nofun)

theorem step122 : StepOK ComP 122 := prod2 rfl (fun t1 t2 v1 v2 v h1 h2 h => by
  obtain ⟨c1, q1⟩ := h1
  have q1' := comL_plain q1
  have c2 : tokC t2 = [] := h2
  cases h
  refine ⟨by simp only [tokC_append, List.append_nil, c1, c2], ?_⟩
  first
  | exact q1
  | exact fun x hx => by simp at hx
  | exact nofun)

theorem step123 : StepOK ComP 123 := prod0 rfl (fun v h => by
  cases h
  exact (show tokC _ = [] from (rfl : tokC [] = [])))

theorem step124 : StepOK ComP 124 := prod1 rfl (fun t1 v1 v h1 h => by
  obtain ⟨u1, rfl, k1, rfl⟩ := h1
  have c1 := tokC_one k1 (by decide)
  cases h
  exact (show tokC _ = [] from c1))

theorem step125 : StepOK ComP 125 := prod1 rfl (fun t1 v1 v h1 h => by
  obtain ⟨u1, rfl, k1, rfl⟩ := h1
  have c1 := tokC_one k1 (by decide)
  cases h
  exact (show tokC _ = [] from c1))

theorem step126 : StepOK ComP 126 := prod2 rfl (fun t1 t2 v1 v2 v h1 h2 h => by
  have c1 : tokC t1 = [] := h1
  obtain ⟨u2, rfl, k2, rfl⟩ := h2
  have c2 := tokC_one k2 (by decide)
  cases h
  exact (show tokC _ = [] from by simp only [tokC_append, List.append_nil, c1, c2]))

theorem step127 : StepOK ComP 127 := prod0 rfl (fun v h => by
  cases h
  exact (show tokC _ = [] from (rfl : tokC [] = [])))

theorem step128 : StepOK ComP 128 := prod1 rfl (fun t1 v1 v h1 h => by
  have c1 : tokC t1 = [] := h1
  cases h
  exact (show tokC _ = [] from c1))

theorem step129 : StepOK ComP 129 := prod3 rfl (fun t1 t2 t3 v1 v2 v3 v h1 h2 h3 h => by
  obtain ⟨c1, p1⟩ := h1
  obtain ⟨u2, rfl, k2, rfl⟩ := h2
  have c2 := tokC_one k2 (by decide)
  obtain ⟨c3, p3⟩ := h3
  cases h
  refine ⟨by simp only [tokC_append, List.append_nil, c1, c2, c3], ?_⟩
  first
  | exact p1
  | exact p3
  | exact plain_binary _ _ p1.1 p3.1
  | exact plain_tuple p1 p3
  | exact plain_unary _ _ rfl
  | exact ⟨by simp [comE, comC, comL, comI, p1.1, p3.1], rfl, rfl⟩)

theorem step130 : StepOK ComP 130 := prod1 rfl (fun t1 v1 v h1 h => by
  obtain ⟨c1, p1⟩ := h1
  cases h
  refine ⟨c1, ?_⟩
  first
  | exact fun x hx => by simp at hx; subst hx; exact p1
  | exact fun x hx => by simp at hx
  | exact nofun)

theorem step131 : StepOK ComP 131 := prod3 rfl (fun t1 t2 t3 v1 v2 v3 v h1 h2 h3 h => by
  obtain ⟨c1, q1⟩ := h1
  have q1' := comL_plain q1
  have c2 : tokC t2 = [] := h2
  obtain ⟨c3, p3⟩ := h3
  cases h
  refine ⟨by simp only [tokC_append, List.append_nil, c1, c2, c3], ?_⟩
  first
  | exact q1
  | exact plain_snoc q1 p3
  | exact fun x hx => by simp at hx; subst hx; exact p3
  | exact fun x hx => by simp at hx
  | exact nofun)

theorem step132 : StepOK ComP 132 := prod0 rfl (fun v h => by
  cases h
  refine ⟨(rfl : tokC [] = []), ?_⟩
  first
  | exact fun x hx => by simp at hx
  | exact nofun)

theorem step133 : StepOK ComP 133 := prod1 rfl (fun t1 v1 v h1 h => by
  obtain ⟨c1, q1⟩ := h1
  have q1' := comL_plain q1
  cases h
  refine ⟨c1, ?_⟩
  first
  | exact q1
  | exact fun x hx => by simp at hx
  | exact nofun)

theorem step134 : StepOK ComP 134 := prod2 rfl (fun t1 t2 v1 v2 v h1 h2 h => by
  obtain ⟨c1, q1⟩ := h1
  have q1' := comL_plain q1
  have c2 : tokC t2 = [] := h2
  cases h
  refine ⟨by simp only [tokC_append, List.append_nil, c1, c2], ?_⟩
  first
  | exact q1
  | exact fun x hx => by simp at hx
  | exact nofun)

theorem step135 : StepOK ComP 135 := prod1 rfl (fun t1 v1 v h1 h => by
  obtain ⟨c1, p1⟩ := h1
  cases h
  refine ⟨c1, ?_⟩
  first
  | exact p1
  | exact plain_unary _ _ p1.1
  | exact plain_unary _ _ rfl
  | exact ⟨by simp [comE, comC, comL, comI, p1.1], rfl, rfl⟩)

theorem step136 : StepOK ComP 136 := prod3 rfl (fun t1 t2 t3 v1 v2 v3 v h1 h2 h3 h => by
  obtain ⟨c1, p1⟩ := h1
  obtain ⟨u2, rfl, k2, rfl⟩ := h2
  have c2 := tokC_one k2 (by decide)
  obtain ⟨c3, p3⟩ := h3
  cases h
  refine ⟨by simp only [tokC_append, List.append_nil, c1, c2, c3], ?_⟩
  first
  | exact p1
  | exact p3
  | exact plain_binary _ _ p1.1 p3.1
  | exact plain_tuple p1 p3
  | exact plain_unary _ _ rfl
  | exact ⟨by simp [comE, comC, comL, comI, p1.1, p3.1], rfl, rfl⟩)

theorem step137 : StepOK ComP 137 := prod1 rfl (fun t1 v1 v h1 h => by
  obtain ⟨u1, rfl, k1, rfl⟩ := h1
  have c1 := tokC_one k1 (by decide)
  cases h
  exact ⟨c1, _, _, _, _, _, rfl⟩)

theorem step138 : StepOK ComP 138 := prod1 rfl (fun t1 v1 v h1 h => by
  obtain ⟨u1, rfl, k1, rfl⟩ := h1
  have c1 := tokC_one k1 (by decide)
  cases h
  exact ⟨c1, _, _, rfl⟩)

theorem step139 : StepOK ComP 139 := prod3 rfl (fun t1 t2 t3 v1 v2 v3 v h1 h2 h3 h => by
  obtain ⟨u1, rfl, k1, rfl⟩ := h1
  have c1 := tokC_one k1 (by decide)
  obtain ⟨u2, rfl, k2, rfl⟩ := h2
  have c2 := tokC_one k2 (by decide)
  obtain ⟨u3, rfl, k3, rfl⟩ := h3
  have c3 := tokC_one k3 (by decide)
  cases h
  refine ⟨by simp only [tokC_append, List.append_nil, c1, c2, c3], ?_⟩
  first
  | exact plain_unary _ _ rfl
  | exact ⟨by simp [comE, comC, comL, comI], rfl, rfl⟩)

theorem step140 : StepOK ComP 140 := prod2 rfl (fun t1 t2 v1 v2 v h1 h2 h => by
  obtain ⟨u1, rfl, k1, rfl⟩ := h1
  have c1 := tokC_one k1 (by decide)
  obtain ⟨u2, rfl, k2, rfl⟩ := h2
  have c2 := tokC_one k2 (by decide)
  cases h
  refine ⟨by simp only [tokC_append, List.append_nil, c1, c2], ?_⟩
  first
  | exact plain_unary _ _ rfl
  | exact ⟨by simp [comE, comC, comL, comI], rfl, rfl⟩)

theorem step141 : StepOK ComP 141 := prod2 rfl (fun t1 t2 v1 v2 v h1 h2 h => by
  obtain ⟨u1, rfl, k1, rfl⟩ := h1
  have c1 := tokC_one k1 (by decide)
  obtain ⟨u2, rfl, k2, rfl⟩ := h2
  have c2 := tokC_one k2 (by decide)
  cases h
  refine ⟨by simp only [tokC_append, List.append_nil, c1, c2], ?_⟩
  first
  | exact plain_unary _ _ rfl
  | exact ⟨by simp [comE, comC, comL, comI], rfl, rfl⟩)

theorem step142 : StepOK ComP 142 := prod1 rfl (fun t1 v1 v h1 h => by
  obtain ⟨u1, rfl, k1, rfl⟩ := h1
  have c1 := tokC_one k1 (by decide)
  cases h
  refine ⟨c1, ?_⟩
  first
  | exact plain_unary _ _ rfl
  | exact ⟨by simp [comE, comC, comL, comI], rfl, rfl⟩)

theorem step143 : StepOK ComP 143 := prod4 rfl (fun t1 t2 t3 t4 v1 v2 v3 v4 v h1 h2 h3 h4 h => by
  obtain ⟨u1, rfl, k1, rfl⟩ := h1
  have c1 := tokC_one k1 (by decide)
  obtain ⟨c2, p2⟩ := h2
  obtain ⟨u3, rfl, k3, rfl⟩ := h3
  have c3 := tokC_one k3 (by decide)
  obtain ⟨c4, p4⟩ := h4
  cases h
  refine ⟨by simp only [tokC_append, List.append_nil, c1, c2, c3, c4], ?_⟩
  first
  | exact p2
  | exact p4
  | exact plain_binary _ _ p2.1 p4.1
  | exact plain_tuple p2 p4
  | exact plain_unary _ _ rfl
  | exact ⟨by simp [comE, comC, comL, comI, p2.1, p4.1], rfl, rfl⟩)

theorem step144 : StepOK ComP 144 := prod1 rfl (fun t1 v1 v h1 h => by
  obtain ⟨c1, p1⟩ := h1
  cases h
  refine ⟨c1, ?_⟩
  first
  | exact fun x hx => by simp at hx; subst hx; exact p1
  | exact fun x hx => by simp at hx
  | exact nofun)

theorem step145 : StepOK ComP 145 := prod3 rfl (fun t1 t2 t3 v1 v2 v3 v h1 h2 h3 h => by
  obtain ⟨c1, q1⟩ := h1
  have q1' := comL_plain q1
  obtain ⟨u2, rfl, k2, rfl⟩ := h2
  have c2 := tokC_one k2 (by decide)
  obtain ⟨c3, p3⟩ := h3
  cases h
  refine ⟨by simp only [tokC_append, List.append_nil, c1, c2, c3], ?_⟩
  first
  | exact plain_snoc q1 ⟨by simp [comE, comC, p3.1], rfl, rfl⟩)

theorem step146 : StepOK ComP 146 := prod1 rfl (fun t1 v1 v h1 h => by
  obtain ⟨c1, q1⟩ := h1
  have q1' := comL_plain q1
  cases h
  refine ⟨c1, ?_⟩
  first
  | exact q1
  | exact fun x hx => by simp at hx
  | exact nofun)

theorem step147 : StepOK ComP 147 := prod2 rfl (fun t1 t2 v1 v2 v h1 h2 h => by
  obtain ⟨c1, q1⟩ := h1
  have q1' := comL_plain q1
  obtain ⟨c2, q2⟩ := h2
  have q2' := comL_plain q2
  cases h
  refine ⟨by simp only [tokC_append, List.append_nil, c1, c2], ?_⟩
  first
  | exact fun x hx => (List.mem_append.1 hx).elim (q1 x) (q2 x))


/-! ### Changing the comments of one node -/

theorem setC_count (w : Comment) {x : Expr} (hx : okE x = true) (c : Comments) :
    (comE (x.setComments c)).count w + (comC x.comments).count w = (comE x).count w + (comC c).count w := by
  cases x with
  | nil => cases hx
  | _ => simp only [Expr.setComments, Expr.comments, comE, List.count_append] <;> omega

theorem setC_okE (x : Expr) (c : Comments) : okE (x.setComments c) = okE x := by
  cases x <;> rfl

theorem setC_block (x : Expr) (c : Comments) : isCommentBlock (x.setComments c) = isCommentBlock x := by
  cases x <;> rfl

theorem setC_comments {x : Expr} (hx : okE x = true) (c : Comments) : (x.setComments c).comments = c := by
  cases x with
  | nil => cases hx
  | _ => rfl

theorem setAfter_count (w : Comment) {x : Expr} (hx : okE x = true) (c : List Comment) :
    (comE (setAfter c x)).count w + x.comments.after.count w = (comE x).count w + c.count w := by
  have := setC_count w hx { x.comments with after := c }
  unfold setAfter
  dsimp only at this ⊢
  simp only [comC, List.count_append] at this
  omega

theorem setBefore_count (w : Comment) {x : Expr} (hx : okE x = true) (c : List Comment) :
    (comE (setBefore c x)).count w + x.comments.before.count w = (comE x).count w + c.count w := by
  have := setC_count w hx { x.comments with before := c }
  unfold setBefore
  dsimp only at this ⊢
  simp only [comC, List.count_append] at this
  omega

theorem setAfter_flags {x : Expr} (hx : okE x = true) (c : List Comment) :
    okE (setAfter c x) = true ∧ noBefore (setAfter c x) = noBefore x ∧ noSuffix (setAfter c x) = noSuffix x ∧
      isCommentBlock (setAfter c x) = isCommentBlock x := by
  unfold setAfter noBefore noSuffix
  rw [setC_okE, setC_block, setC_comments hx]
  exact ⟨hx, rfl, rfl, rfl⟩

theorem setBefore_flags {x : Expr} (hx : okE x = true) (c : List Comment) :
    okE (setBefore c x) = true ∧ noSuffix (setBefore c x) = noSuffix x ∧ isCommentBlock (setBefore c x) = isCommentBlock x := by
  unfold setBefore noSuffix
  rw [setC_okE, setC_block, setC_comments hx]
  exact ⟨hx, rfl, rfl⟩

theorem okTail_iff (l : List Expr) : okTail l = true ↔ ∀ x ∈ l, okE x = true ∧ noSuffix x = true ∧ noBefore x = true := by
  induction l with
  | nil => simp [okTail]
  | cons x l ih => simp [okTail, ih, and_assoc]

theorem plain_tail {l : List Expr} (h : ∀ x ∈ l, Plain x) : okTail l = true := by
  rw [okTail_iff]
  intro x hx
  obtain ⟨_, h2, h3⟩ := h x hx
  exact ⟨h3, by simp [noSuffix, h2], by simp [noBefore, h2]⟩

theorem blk_flags {x : Expr} (h : Blk x) : okE x = true ∧ noSuffix x = true ∧ noBefore x = true ∧ isCommentBlock x = true ∧ comE x = x.comments.after := by
  obtain ⟨a, s, rfl⟩ := h
  exact ⟨rfl, rfl, rfl, rfl, by simp [comE, comC, Expr.comments]⟩

/-- a comment block of a body other than the first -/
theorem block_blk {x : Expr} (hb : isCommentBlock x = true) (h1 : noSuffix x = true) (h2 : noBefore x = true) : Blk x := by
  cases x with
  | commentBlock c s =>
    obtain ⟨b, su, a⟩ := c
    simp [noSuffix, isCommentBlock, Expr.comments] at h1
    simp [noBefore, isCommentBlock, Expr.comments] at h2
    subst h1 h2
    exact ⟨a, s, rfl⟩
  | _ => cases hb

theorem modLast_snoc (f : Expr → Expr) (a : List Expr) (x : Expr) : modLast f (a ++ [x]) = a ++ [f x] := by
  induction a with
  | nil => rfl
  | cons y a ih =>
    cases a with
    | nil => rfl
    | cons z a => rw [List.cons_append, List.cons_append, modLast]; · rw [← List.cons_append, ih]; rfl
                  · intro h; simp at h

theorem eq_snoc {l : List Expr} (h : l ≠ []) : ∃ a x, l = a ++ [x] := ⟨l.dropLast, l.getLast h, (List.dropLast_concat_getLast h).symm⟩

/-- adding a comment to the last statement or in a new block -/
theorem addComment_spec (v : Val) (pos : Pos) (tok : Bytes) (h : okTail v.exprs = true) (hl : v.last = true → v.exprs ≠ []) :
    (∀ w, (comL (addComment v pos tok).exprs).count w = (comL v.exprs).count w + [(⟨pos, tok⟩ : Comment)].count w) ∧
    okTail (addComment v pos tok).exprs = true ∧ (addComment v pos tok).exprs ≠ [] ∧
    ((∀ x ∈ v.exprs, Blk x) → ∀ x ∈ (addComment v pos tok).exprs, Blk x) := by
  unfold addComment
  dsimp only
  have key : ∀ (a : List Expr) (x : Expr), (∀ y ∈ a ++ [x], okE y = true ∧ noSuffix y = true ∧ noBefore y = true) →
      (∀ w, (comL (modLast (fun x => setAfter (x.comments.after ++ [⟨pos, tok⟩]) x) (a ++ [x]))).count w = (comL (a ++ [x])).count w + [(⟨pos, tok⟩ : Comment)].count w) ∧
      okTail (modLast (fun x => setAfter (x.comments.after ++ [⟨pos, tok⟩]) x) (a ++ [x])) = true ∧
      modLast (fun x => setAfter (x.comments.after ++ [⟨pos, tok⟩]) x) (a ++ [x]) ≠ [] ∧
      ((∀ y ∈ a ++ [x], Blk y) → ∀ y ∈ modLast (fun x => setAfter (x.comments.after ++ [⟨pos, tok⟩]) x) (a ++ [x]), Blk y) := by
    intro a x hall
    have hx := hall x (by simp)
    rw [modLast_snoc]
    refine ⟨fun w => ?_, ?_, by simp, ?_⟩
    · have := setAfter_count w hx.1 (x.comments.after ++ [⟨pos, tok⟩])
      simp only [comL_append, comL, List.count_append, List.append_nil] at this ⊢
      omega
    · rw [okTail_iff]
      intro y hy
      rcases List.mem_append.1 hy with hy | hy
      · exact hall y (by simp [hy])
      · rw [List.mem_singleton.1 hy]
        have := setAfter_flags hx.1 (x.comments.after ++ [⟨pos, tok⟩])
        exact ⟨this.1, this.2.2.1.trans hx.2.1, this.2.1.trans hx.2.2⟩
    · intro hb y hy
      rcases List.mem_append.1 hy with hy | hy
      · exact hb y (by simp [hy])
      · rw [List.mem_singleton.1 hy]
        obtain ⟨a', s, rfl⟩ := hb x (by simp)
        exact ⟨_, _, rfl⟩
  rw [okTail_iff] at h
  by_cases hv : v.last = true
  · rw [if_pos hv]
    obtain ⟨a, x, e⟩ := eq_snoc (hl hv)
    rw [e] at h ⊢
    exact key a x h
  · rw [if_neg hv]
    have := key v.exprs (.commentBlock {} pos) (fun y hy => by
      rcases List.mem_append.1 hy with hy | hy
      · exact h y hy
      · rw [List.mem_singleton.1 hy]; exact ⟨rfl, rfl, rfl⟩)
    refine ⟨fun w => ?_, this.2.1, this.2.2.1, fun hb => this.2.2.2 (fun y hy => ?_)⟩
    · rw [this.1 w, comL_append]; simp [comL, comE, comC]
    · rcases List.mem_append.1 hy with hy | hy
      · exact hb y hy
      · rw [List.mem_singleton.1 hy]; exact ⟨[], pos, rfl⟩

/-- `stmts stmt` -/
theorem addStmt_spec (v1 v2 : Val) (h1 : okTail v1.exprs = true) (hl : v1.last = true → v1.exprs ≠ []) (h2 : okTail v2.exprs = true)
    (h3 : ∃ x l, v2.exprs = x :: l ∧ isCommentBlock x = false ∧ x.comments.before = []) :
    (∀ w, (comL (addStmt v1 v2).exprs).count w = (comL v1.exprs).count w + (comL v2.exprs).count w) ∧
    okTail (addStmt v1 v2).exprs = true ∧ (addStmt v1 v2).exprs ≠ [] := by
  obtain ⟨s, l, e2, hs, hb⟩ := h3
  have app : ∀ a b, okTail a = true → okTail b = true → okTail (a ++ b) = true := by
    intro a b ha hb
    rw [okTail_iff] at *
    intro y hy
    exact (List.mem_append.1 hy).elim (ha y) (hb y)
  have plain : (∀ w, (comL (v1.exprs ++ v2.exprs)).count w = (comL v1.exprs).count w + (comL v2.exprs).count w) ∧
      okTail (v1.exprs ++ v2.exprs) = true ∧ v1.exprs ++ v2.exprs ≠ [] :=
    ⟨fun w => by simp [comL_append], app _ _ h1 h2, by simp [e2]⟩
  unfold addStmt
  by_cases hv : v1.last = true
  · rw [if_pos hv]
    obtain ⟨a, x, e1⟩ := eq_snoc (hl hv)
    rw [e1, List.getLast?_concat]
    rw [e1] at h1
    have h1' := (okTail_iff _).1 h1
    have hx := h1' x (by simp)
    have ha : okTail a = true := (okTail_iff _).2 (fun y hy => h1' y (by simp [hy]))
    have h2' := (okTail_iff _).1 h2
    rw [e2] at h2'
    have hso := h2' s (by simp)
    have hl' : okTail l = true := (okTail_iff _).2 (fun y hy => h2' y (by simp [hy]))
    have hsb := setBefore_flags hso.1 x.comments.after
    have hmod : okTail (modHead (setBefore x.comments.after) v2.exprs) = true := by
      rw [e2]
      simp only [modHead, okTail, Bool.and_eq_true]
      exact ⟨⟨⟨hsb.1, hsb.2.1.trans hso.2.1⟩, by simp [noBefore, hsb.2.2, hs]⟩, hl'⟩
    have hcnt : ∀ w, (comL (modHead (setBefore x.comments.after) v2.exprs)).count w = (comL v2.exprs).count w + x.comments.after.count w := by
      intro w
      have := setBefore_count w hso.1 x.comments.after
      rw [hb] at this
      rw [e2]
      simp only [modHead, comL, List.count_append, List.count_nil] at this ⊢
      omega
    have hne : modHead (setBefore x.comments.after) v2.exprs ≠ [] := by rw [e2]; simp [modHead]
    dsimp only
    by_cases hcb : isCommentBlock x = true
    · rw [if_pos hcb, List.dropLast_concat]
      obtain ⟨_, _, _, _, hxc⟩ := blk_flags (block_blk hcb hx.2.1 hx.2.2)
      refine ⟨fun w => ?_, app _ _ ha hmod, by simp [hne]⟩
      dsimp only
      simp only [comL_append, List.count_append, hcnt, comL, hxc, List.count_nil]
      omega
    · rw [if_neg hcb, modLast_snoc]
      have hsa := setAfter_flags hx.1 []
      refine ⟨fun w => ?_, app _ _ (app _ _ ha ?_) hmod, by simp⟩
      · have := setAfter_count w hx.1 []
        dsimp only
        simp only [comL_append, List.count_append, hcnt, comL, List.count_nil] at this ⊢
        omega
      · simp only [okTail, Bool.and_eq_true, and_true]
        exact ⟨⟨hsa.1, hsa.2.2.1.trans hx.2.1⟩, hsa.2.1.trans hx.2.2⟩
  · rw [if_neg hv]
    exact plain

/-- `'\n' comments _INDENT stmts _UNINDENT` -/
theorem mkSuite_spec (v1 v2 v4 v : Val) (h : mkSuite v1 v2 v4 = some v) (h2 : ∀ x ∈ v2.exprs, Blk x) (h4 : okTail v4.exprs = true)
    (hb4 : ∀ x ∈ v4.exprs.head?, isCommentBlock x = false ∧ x.comments.before = []) :
    (∀ w, (comL v.exprs).count w = (comL v2.exprs).count w + (comL v4.exprs).count w) ∧ okTail v.exprs = true := by
  have hblk : ∀ l, (∀ x ∈ l, Blk x) → okTail l = true := by
    intro l hl
    rw [okTail_iff]
    intro x hx
    have := blk_flags (hl x hx)
    exact ⟨this.1, this.2.1, this.2.2.1⟩
  have app : ∀ a b, okTail a = true → okTail b = true → okTail (a ++ b) = true := by
    intro a b ha hb
    rw [okTail_iff] at *
    intro y hy
    exact (List.mem_append.1 hy).elim (ha y) (hb y)
  unfold mkSuite at h
  cases hg : v2.exprs.getLast? with
  | none =>
    rw [hg] at h
    have he : v2.exprs = [] := List.getLast?_eq_none_iff.1 hg
    cases h
    exact ⟨fun w => by simp [he, comL], h4⟩
  | some cb =>
    rw [hg] at h
    have hne : v2.exprs ≠ [] := by intro e; rw [e] at hg; cases hg
    obtain ⟨a, x, e⟩ := eq_snoc hne
    rw [e, List.getLast?_concat] at hg
    cases hg
    dsimp only at h
    split at h
    · rename_i s l c e4 _
      split at h
      · cases h
        rw [e, List.dropLast_concat]
        have hcb := blk_flags (h2 cb (by rw [e]; simp))
        have h4' := (okTail_iff _).1 h4
        rw [e4] at h4' hb4
        have hs := h4' s (by simp)
        have hsb := setBefore_flags hs.1 cb.comments.after
        have hl : okTail l = true := (okTail_iff _).2 (fun y hy => h4' y (by simp [hy]))
        have hsbf := hb4 s (by simp)
        refine ⟨fun w => ?_, ?_⟩
        · have := setBefore_count w hs.1 cb.comments.after
          rw [hsbf.2] at this
          dsimp only
          rw [e4]
          simp only [comL_append, comL, List.count_append, hcb.2.2.2.2, List.count_nil] at this ⊢
          omega
        · dsimp only
          refine app _ _ (hblk _ (fun y hy => h2 y (by rw [e]; simp [hy]))) ?_
          simp only [okTail, Bool.and_eq_true]
          exact ⟨⟨⟨hsb.1, hsb.2.1.trans hs.2.1⟩, by simp [noBefore, hsb.2.2, hsbf.1]⟩, hl⟩
      · cases h
        exact ⟨fun w => by simp [comL_append], (app _ _ (hblk _ h2) h4)⟩
    · cases h

theorem okTail_app {a b : List Expr} (ha : okTail a = true) (hb : okTail b = true) : okTail (a ++ b) = true := by
  rw [okTail_iff] at *
  intro y hy
  exact (List.mem_append.1 hy).elim (ha y) (hb y)

theorem okTail_split {a b : List Expr} (h : okTail (a ++ b) = true) : okTail a = true ∧ okTail b = true := by
  rw [okTail_iff] at h
  exact ⟨(okTail_iff _).2 (fun y hy => h y (by simp [hy])), (okTail_iff _).2 (fun y hy => h y (by simp [hy]))⟩

theorem blk_tail {l : List Expr} (h : ∀ x ∈ l, Blk x) : okTail l = true := by
  rw [okTail_iff]
  intro x hx
  have := blk_flags (h x hx)
  exact ⟨this.1, this.2.1, this.2.2.1⟩

/-! ### Comments at the end of a body that belong to the outside -/

theorem splitDedented_spec (n : Nat) : ∀ (l a b : List Comment), splitDedented n l = some (a, b) → l = a ++ b := by
  intro l
  induction l with
  | nil => intro a b h; cases h
  | cons c l ih =>
    intro a b h
    unfold splitDedented at h
    split at h
    · cases h; rfl
    · cases hs : splitDedented n l with
      | none => rw [hs] at h; cases h
      | some p =>
        obtain ⟨x, y⟩ := p
        rw [hs] at h
        cases h
        rw [ih _ _ hs]; rfl

theorem splitAtLastStmt_none : ∀ {l : List Expr}, splitAtLastStmt l = none → ∀ x ∈ l, isCommentBlock x = true := by
  intro l
  induction l with
  | nil => intro _ x hx; cases hx
  | cons y l ih =>
    intro h x hx
    unfold splitAtLastStmt at h
    cases hs : splitAtLastStmt l with
    | some p => rw [hs] at h; cases h
    | none =>
      rw [hs] at h
      dsimp only at h
      split at h
      · rename_i hb
        rcases List.mem_cons.1 hx with rfl | hx
        · exact hb
        · exact ih hs x hx
      · cases h

theorem splitAtLastStmt_some : ∀ {l a b : List Expr}, splitAtLastStmt l = some (a, b) → l = a ++ b ∧
    ∃ s r, b = s :: r ∧ isCommentBlock s = false ∧ ∀ x ∈ r, isCommentBlock x = true := by
  intro l
  induction l with
  | nil => intro a b h; cases h
  | cons y l ih =>
    intro a b h
    unfold splitAtLastStmt at h
    cases hs : splitAtLastStmt l with
    | some p =>
      obtain ⟨a', b'⟩ := p
      rw [hs] at h
      cases h
      obtain ⟨e, h2⟩ := ih hs
      exact ⟨by rw [e]; rfl, h2⟩
    | none =>
      rw [hs] at h
      dsimp only at h
      split at h
      · cases h
      · rename_i hb
        cases h
        exact ⟨rfl, y, l, rfl, by simpa using hb, splitAtLastStmt_none hs⟩

theorem extractLoop_spec (n : Nat) : ∀ (l : List Expr) (first : Bool), okTail l = true →
    (∀ x ∈ l, first = true ∨ isCommentBlock x = true) → (∀ x ∈ l.tail, isCommentBlock x = true) →
    (∀ w, (comL (extractLoop n first l).1).count w + (comL (extractLoop n first l).2).count w = (comL l).count w) ∧
    okTail (extractLoop n first l).1 = true ∧ (∀ x ∈ (extractLoop n first l).2, Blk x) := by
  intro l
  induction l with
  | nil => intro first _ _ _; exact ⟨fun w => rfl, rfl, nofun⟩
  | cons s l ih =>
    intro first hok hf ht
    have hok' := (okTail_iff _).1 hok
    have hs := hok' s (by simp)
    have hl : okTail l = true := (okTail_iff _).2 (fun y hy => hok' y (by simp [hy]))
    have hblk : ∀ x ∈ l, Blk x := fun x hx => block_blk (ht x hx) (hok' x (by simp [hx])).2.1 (hok' x (by simp [hx])).2.2
    unfold extractLoop
    cases hd : splitDedented n s.comments.after with
    | none =>
      dsimp only
      have := ih false hl (fun x hx => .inr (ht x hx)) (fun x hx => ht x (List.mem_of_mem_tail hx))
      rcases hq : extractLoop n false l with ⟨p, q⟩
      rw [hq] at this
      dsimp only at this ⊢
      refine ⟨fun w => ?_, ?_, this.2.2⟩
      · have := this.1 w
        simp only [comL, List.count_append]
        omega
      · simp only [okTail, Bool.and_eq_true]
        exact ⟨⟨⟨hs.1, hs.2.1⟩, hs.2.2⟩, this.2.1⟩
    | some p =>
      obtain ⟨stay, go⟩ := p
      have hsp := splitDedented_spec n _ _ _ hd
      dsimp only
      have hb : ∀ x ∈ (Expr.commentBlock { after := go } ((go.headD ⟨{}, []⟩).start) :: l), Blk x := by
        intro x hx
        rcases List.mem_cons.1 hx with rfl | hx
        · exact ⟨_, _, rfl⟩
        · exact hblk x hx
      refine ⟨fun w => ?_, ?_, hb⟩
      · have h1 := setAfter_count w hs.1 stay
        have hc : (comE (Expr.commentBlock { after := go } ((go.headD ⟨{}, []⟩).start))).count w = go.count w := by simp [comE, comC]
        have h2 : s.comments.after.count w = stay.count w + go.count w := by rw [hsp]; simp
        split
        · rename_i hcase
          simp only [Bool.and_eq_true, Bool.not_eq_true', List.isEmpty_iff] at hcase
          have hsb : Blk s := block_blk ((hf s (by simp)).resolve_left (by simp [hcase.1])) hs.2.1 hs.2.2
          have h3 := (blk_flags hsb).2.2.2.2
          have h4 : stay.count w = 0 := by rw [hcase.2]; rfl
          simp only [comL, List.count_append, hc, List.count_nil, h3]
          omega
        · simp only [comL, List.count_append, hc, List.count_nil]
          omega
      · split
        · rfl
        · have hsa := setAfter_flags hs.1 stay
          simp only [okTail, Bool.and_eq_true, and_true]
          exact ⟨⟨hsa.1, hsa.2.2.1.trans hs.2.1⟩, hsa.2.1.trans hs.2.2⟩

theorem extractBody_spec (l : List Expr) (h : okTail l = true) :
    (∀ w, (comL (extractBody l).1).count w + (comL (extractBody l).2).count w = (comL l).count w) ∧
    okTail (extractBody l).1 = true ∧ (∀ x ∈ (extractBody l).2, Blk x) := by
  unfold extractBody
  cases l with
  | nil => exact ⟨fun w => rfl, rfl, nofun⟩
  | cons x l =>
    dsimp only
    cases hs : splitAtLastStmt (x :: l) with
    | none => exact ⟨fun w => by simp [comL], h, nofun⟩
    | some p =>
      obtain ⟨a, b⟩ := p
      obtain ⟨e, s, r, eb, hs1, hs2⟩ := splitAtLastStmt_some hs
      rw [e] at h
      obtain ⟨ha, hb⟩ := okTail_split h
      have := extractLoop_spec x.startPos.lineRune b true hb (fun _ _ => .inl rfl) (by rw [eb]; exact hs2)
      dsimp only
      rcases hq : extractLoop x.startPos.lineRune true b with ⟨p, q⟩
      rw [hq] at this
      dsimp only at this ⊢
      refine ⟨fun w => ?_, okTail_app ha this.2.1, this.2.2⟩
      have := this.1 w
      rw [e]
      simp only [comL_append, List.count_append]
      omega

theorem extractTrailing_spec : ∀ (f : Nat) (s : Expr), okE s = true →
    (∀ w, (comE (extractTrailing f s).1).count w + (comL (extractTrailing f s).2).count w = (comE s).count w) ∧
    okE (extractTrailing f s).1 = true ∧ (∀ x ∈ (extractTrailing f s).2, Blk x) ∧
    (extractTrailing f s).1.comments = s.comments ∧ isCommentBlock (extractTrailing f s).1 = isCommentBlock s := by
  intro f
  induction f with
  | zero => intro s h; exact ⟨fun w => by simp [extractTrailing, comL], h, nofun, rfl, rfl⟩
  | succ f ih =>
    intro s h
    have other : extractTrailing (f + 1) s = (s, []) →
      (∀ w, (comE (extractTrailing (f + 1) s).1).count w + (comL (extractTrailing (f + 1) s).2).count w = (comE s).count w) ∧
      okE (extractTrailing (f + 1) s).1 = true ∧ (∀ x ∈ (extractTrailing (f + 1) s).2, Blk x) ∧
      (extractTrailing (f + 1) s).1.comments = s.comments ∧ isCommentBlock (extractTrailing (f + 1) s).1 = isCommentBlock s := by
      intro e
      rw [e]
      exact ⟨fun w => by simp [comL], h, nofun, rfl, rfl⟩
    cases s with
    | defS c sp n ps body cp fc fm t =>
      have := extractBody_spec body (by simpa [okE] using h)
      simp only [extractTrailing]
      rcases hq : extractBody body with ⟨p, q⟩
      rw [hq] at this
      dsimp only at this ⊢
      refine ⟨fun w => ?_, this.2.1, this.2.2, rfl, rfl⟩
      have := this.1 w
      simp only [comE, List.count_append]
      omega
    | forS c fp vs x body =>
      have := extractBody_spec body (by simpa [okE] using h)
      simp only [extractTrailing]
      rcases hq : extractBody body with ⟨p, q⟩
      rw [hq] at this
      dsimp only at this ⊢
      refine ⟨fun w => ?_, this.2.1, this.2.2, rfl, rfl⟩
      have := this.1 w
      simp only [comE, List.count_append]
      omega
    | ifS c ip co t ep fa =>
      simp only [okE, Bool.and_eq_true] at h
      obtain ⟨ht, hfa⟩ := h
      unfold extractTrailing
      dsimp only
      split
      · have := extractBody_spec t ht
        rcases hq : extractBody t with ⟨p, q⟩
        rw [hq] at this
        dsimp only at this ⊢
        refine ⟨fun w => ?_, by simp only [okE, this.2.1]; rfl, this.2.2, rfl, rfl⟩
        have := this.1 w
        simp only [comE, List.count_append]
        omega
      · rename_i c2 ip2 co2 t2 ep2 fa2
        have hx := (okTail_iff _).1 hfa (.ifS c2 ip2 co2 t2 ep2 fa2) (by simp)
        have := ih (.ifS c2 ip2 co2 t2 ep2 fa2) hx.1
        rcases hq : extractTrailing f (.ifS c2 ip2 co2 t2 ep2 fa2) with ⟨p, q⟩
        rw [hq] at this
        dsimp only at this ⊢
        refine ⟨fun w => ?_, ?_, this.2.2.1, rfl, rfl⟩
        · have := this.1 w
          simp only [comE, comL, List.count_append, List.count_nil] at this ⊢
          omega
        · have hb : isCommentBlock p = false := this.2.2.2.2
          simp [okE, okTail, ht, this.2.1, noSuffix, noBefore, hb]
      · have := extractBody_spec fa hfa
        rcases hq : extractBody fa with ⟨p, q⟩
        rw [hq] at this
        dsimp only at this ⊢
        refine ⟨fun w => ?_, by simp only [okE, this.2.1, ht]; rfl, this.2.2, rfl, rfl⟩
        have := this.1 w
        simp only [comE, List.count_append]
        omega
    | _ => exact other rfl

/-! ### elif and else -/

theorem setElse_spec (p : Pos) (new : List Expr) (hn : okTail new = true) : ∀ (f : Nat) (x x' : Expr), Chain x → okE x = true →
    setElse f p new x = some x' →
    (∀ w, (comE x').count w = (comE x).count w + (comL new).count w) ∧ okE x' = true ∧ x'.comments = x.comments ∧ isCommentBlock x' = false ∧
    (∀ y, new = [y] → Chain y → Chain x') := by
  intro f
  induction f with
  | zero => intro x x' _ _ h; cases h
  | succ f ih =>
    intro x x' hc hok h
    cases hc with
    | last c ip co t e he =>
      simp only [setElse] at h
      cases h
      simp only [okE, Bool.and_eq_true] at hok
      refine ⟨fun w => ?_, by simp only [okE, hok.1, hn]; rfl, rfl, rfl, ?_⟩
      · have he' : (comC e.comments).count w = 0 := by rw [he]; rfl
        simp only [comE, comL, List.count_append, he', comC_empty, List.count_nil]
      · intro y e hy
        rw [e]
        exact Chain.more _ _ _ _ _ _ hy
    | more c ip co t e y hy =>
      simp only [okE, Bool.and_eq_true] at hok
      have hyo := (okTail_iff _).1 hok.2 y (by simp)
      simp only [setElse] at h
      cases hs : setElse f p new y with
      | none => rw [hs] at h; cases h
      | some y' =>
        rw [hs] at h
        cases h
        obtain ⟨h1, h2, h3, h4, h5⟩ := ih y y' hy hyo.1 hs
        refine ⟨fun w => ?_, by simp [okE, okTail, hok.1, h2, noSuffix, noBefore, h4], rfl, rfl, ?_⟩
        · have := h1 w
          simp only [comE, comL, List.count_append, List.count_nil]
          omega
        · intro z e hz
          exact Chain.more _ _ _ _ _ _ (h5 z e hz)

/-! ### Productions of statements -/

/-- after a block start there is no line end and no comment -/
def IndOK (ts : List Tok) : Prop := ∀ a t u b, ts = a ++ t :: u :: b → t.kind = K.indent → u.kind ≠ K.newline ∧ u.kind ≠ K.comment

theorem IndOK.left {a b : List Tok} (h : IndOK (a ++ b)) : IndOK a := by
  intro x t u y e hk
  exact h x t u (y ++ b) (by rw [e]; simp) hk

theorem IndOK.right {a b : List Tok} (h : IndOK (a ++ b)) : IndOK b := by
  intro x t u y e hk
  exact h (a ++ x) t u y (by rw [e]; simp) hk

/-- `ComP`, for tokens as the lexer delivers them -/
def ComG : VP := fun a ts v => IndOK ts → ComP a ts v

theorem pl_guard : ∀ (rhs : List Sym) (ts : List Tok) (vs : List Val), IndOK ts → PL ComG rhs ts vs → PL ComP rhs ts vs := by
  intro rhs
  induction rhs with
  | nil => intro ts vs _ h; exact h
  | cons x xs ih =>
    intro ts vs hi h
    obtain ⟨t1, t2, v, vs', e1, e2, h1, h2⟩ := h
    subst e1
    refine ⟨t1, t2, v, vs', rfl, e2, ?_, ih t2 vs' hi.right h2⟩
    cases x with
    | t k => exact h1
    | n a => exact h1 hi.left

theorem guard {r : Nat} (h : StepOK ComP r) : StepOK ComG r :=
  fun a rhs hp ts vs v hl hs hi => h a rhs hp ts vs v (pl_guard rhs ts vs hi hl) hs

theorem same_nil : Same (comL []) [] := fun _ => rfl

theorem step0 : StepOK ComP 0 := prod2 rfl (fun t1 t2 v1 v2 v h1 h2 h => by
  obtain ⟨u2, rfl, k2, rfl⟩ := h2
  have c2 := tokC_one k2 (by decide)
  cases h
  intro w
  rw [tokC_append, c2, List.append_nil]
  exact h1.1 w)

/-- rule 2 needs the guard -/
theorem step1 : StepOK ComG 1 := prod5 rfl (fun t1 t2 t3 t4 t5 v1 v2 v3 v4 v5 v h1 h2 h3 h4 h5 h hi => by
  obtain ⟨u1, rfl, k1, rfl⟩ := h1
  have c1 := tokC_one k1 (by decide)
  obtain ⟨u3, rfl, k3, rfl⟩ := h3
  have c3 := tokC_one k3 (by decide)
  obtain ⟨u5, rfl, k5, rfl⟩ := h5
  have c5 := tokC_one k5 (by decide)
  have i2 : IndOK t2 := hi.left.left.left.right
  have i4 : IndOK t4 := hi.left.right
  obtain ⟨s2, b2, _⟩ := (h2 : IndOK t2 → ComP .comments t2 v2) i2
  obtain ⟨s4, o4, _, f4⟩ := (h4 : IndOK t4 → ComP .stmts t4 v4) i4
  have hb4 : ∀ x ∈ v4.exprs.head?, isCommentBlock x = false ∧ x.comments.before = [] := by
    rcases f4 with ⟨_, e⟩ | ⟨t, r, e, hk⟩ | ⟨x, l, e, hx⟩
    · intro x hx; rw [e] at hx; cases hx
    · have := hi ([u1] ++ t2) u3 t (r ++ [u5]) (by rw [e]; simp) k3
      exact absurd hk (by simp [this])
    · intro y hy
      rw [e] at hy
      cases hy
      exact hx
  have h : mkSuite (Val.ofTok u1) v2 v4 = some v := h
  obtain ⟨g1, g2⟩ := mkSuite_spec _ _ _ _ h b2 o4 hb4
  refine ⟨fun w => ?_, g2⟩
  rw [g1 w, s2 w, s4 w]
  simp only [tokC_append, c1, c3, c5, List.count_append, List.count_nil]
  omega)

theorem step2 : StepOK ComP 2 := prod2 rfl (fun t1 t2 v1 v2 v h1 h2 h => by
  obtain ⟨c1, _, q1⟩ := h1
  have c2 : tokC t2 = [] := h2
  cases h
  exact ⟨fun w => by show (comL v1.exprs).count w = _; rw [comL_plain q1, tokC_append, c1, c2]; rfl, plain_tail q1⟩)

theorem step5 : StepOK ComP 5 := prod0 rfl (fun v h => by
  cases h
  exact ⟨fun _ => rfl, nofun, nofun⟩)

theorem tokC_comment {t : Tok} (h : t.kind = K.comment) : tokC [t] = [⟨t.pos, t.tok⟩] := by simp [tokC, h]

theorem step6 : StepOK ComP 6 := prod3 rfl (fun t1 t2 t3 v1 v2 v3 v h1 h2 h3 h => by
  obtain ⟨s1, b1, l1⟩ := h1
  obtain ⟨u2, rfl, k2, rfl⟩ := h2
  obtain ⟨u3, rfl, k3, rfl⟩ := h3
  have c3 := tokC_one k3 (by decide)
  cases h
  obtain ⟨g1, _, g3, g4⟩ := addComment_spec v1 u2.pos u2.tok (blk_tail b1) l1
  refine ⟨fun w => ?_, g4 b1, fun _ => g3⟩
  refine (g1 w).trans ?_
  rw [s1 w, tokC_append, tokC_append, c3, tokC_comment k2]
  simp)

theorem step7 : StepOK ComP 7 := prod2 rfl (fun t1 t2 v1 v2 v h1 h2 h => by
  obtain ⟨s1, b1, l1⟩ := h1
  obtain ⟨u2, rfl, k2, rfl⟩ := h2
  have c2 := tokC_one k2 (by decide)
  cases h
  exact ⟨fun w => by rw [tokC_append, c2, List.append_nil]; exact s1 w, b1, nofun⟩)

theorem step8 : StepOK ComP 8 := prod0 rfl (fun v h => by
  cases h
  exact ⟨fun _ => rfl, rfl, nofun, .inl ⟨rfl, rfl⟩⟩)

theorem addStmt_head {v1 v2 : Val} {x : Expr} {l : List Expr} (h : v1.exprs = x :: l) (hx : isCommentBlock x = false) (ho : okE x = true)
    (hb : x.comments.before = []) :
    ∃ y l', (addStmt v1 v2).exprs = y :: l' ∧ isCommentBlock y = false ∧ y.comments.before = [] := by
  unfold addStmt
  by_cases hv : v1.last = true
  · rw [if_pos hv]
    obtain ⟨a, z, e⟩ := eq_snoc (l := v1.exprs) (by simp [h])
    rw [e, List.getLast?_concat]
    dsimp only
    rw [h] at e
    cases a with
    | nil =>
      obtain ⟨rfl, _⟩ := List.cons.inj e
      rw [if_neg (by simp [hx])]
      have hsa := setAfter_flags ho []
      refine ⟨setAfter [] x, _, rfl, hsa.2.2.2.trans hx, ?_⟩
      unfold setAfter
      rw [setC_comments ho]
      exact hb
    | cons y a =>
      obtain ⟨rfl, _⟩ := List.cons.inj e
      split
      · rw [List.dropLast_concat]
        exact ⟨x, _, rfl, hx, hb⟩
      · rw [modLast_snoc]
        exact ⟨x, _, rfl, hx, hb⟩
  · rw [if_neg hv, h]
    exact ⟨x, _, rfl, hx, hb⟩

theorem HeadOK.more {t1 t2 : List Tok} {l l' : List Expr} (h : HeadOK t1 l) (h0 : t1 = [] → l = [] → HeadOK t2 l')
    (h1 : ∀ x r, l = x :: r → isCommentBlock x = false → x.comments.before = [] →
      ∃ y r', l' = y :: r' ∧ isCommentBlock y = false ∧ y.comments.before = []) : HeadOK (t1 ++ t2) l' := by
  rcases h with ⟨e, e'⟩ | ⟨t, r, e, hk⟩ | ⟨x, r, e, hx, hb⟩
  · rw [e]; exact h0 e e'
  · exact .inr (.inl ⟨t, r ++ t2, by rw [e]; rfl, hk⟩)
  · exact .inr (.inr (h1 x r e hx hb))

theorem step9 : StepOK ComP 9 := prod2 rfl (fun t1 t2 v1 v2 v h1 h2 h => by
  obtain ⟨s1, o1, l1, f1⟩ := h1
  obtain ⟨s2, o2, x2⟩ := h2
  cases h
  obtain ⟨g1, g2, g3⟩ := addStmt_spec v1 v2 o1 l1 o2 x2
  refine ⟨fun w => ?_, g2, fun _ => g3, f1.more ?_ ?_⟩
  · refine (g1 w).trans ?_
    rw [s1 w, s2 w, tokC_append, List.count_append]
  · intro _ e
    have hl : v1.last = false := by
      cases hv : v1.last with
      | false => rfl
      | true => exact absurd e (l1 hv)
    have : (addStmt v1 v2).exprs = v2.exprs := by
      unfold addStmt
      rw [if_neg (by simp [hl])]
      simp [e]
    refine .inr (.inr ?_)
    show ∃ x l, (addStmt v1 v2).exprs = _ ∧ _
    rw [this]
    exact x2
  · intro x r e hx hb
    exact addStmt_head e hx ((okTail_iff _).1 o1 x (by simp [e])).1 hb)

theorem step10 : StepOK ComP 10 := prod2 rfl (fun t1 t2 v1 v2 v h1 h2 h => by
  obtain ⟨s1, o1, l1, f1⟩ := h1
  obtain ⟨u2, rfl, k2, rfl⟩ := h2
  have c2 := tokC_one k2 (by decide)
  cases h
  exact ⟨fun w => by rw [tokC_append, c2, List.append_nil]; exact s1 w, o1, nofun,
    f1.more (fun _ _ => .inr (.inl ⟨u2, [], rfl, .inl k2⟩)) (fun x r e hx hb => ⟨x, r, e, hx, hb⟩)⟩)

theorem addComment_head {v : Val} {x : Expr} {l : List Expr} (p : Pos) (tok : Bytes) (h : v.exprs = x :: l) (hx : isCommentBlock x = false)
    (ho : okE x = true) (hb : x.comments.before = []) :
    ∃ y l', (addComment v p tok).exprs = y :: l' ∧ isCommentBlock y = false ∧ y.comments.before = [] := by
  have key : ∀ (f : Expr → Expr) (l : List Expr), isCommentBlock (f x) = false → (f x).comments.before = [] →
      ∃ y l', modLast f (x :: l) = y :: l' ∧ isCommentBlock y = false ∧ y.comments.before = [] := by
    intro f l h1 h2
    cases l with
    | nil => exact ⟨_, _, rfl, h1, h2⟩
    | cons z l => exact ⟨_, _, rfl, hx, hb⟩
  have hsa := setAfter_flags ho (x.comments.after ++ [⟨p, tok⟩])
  have hb' : (setAfter (x.comments.after ++ [⟨p, tok⟩]) x).comments.before = [] := by
    unfold setAfter
    rw [setC_comments ho]
    exact hb
  unfold addComment
  dsimp only
  split
  · rw [h]; exact key _ _ (hsa.2.2.2.trans hx) hb'
  · rw [h]; exact key _ _ (hsa.2.2.2.trans hx) hb'

theorem step11 : StepOK ComP 11 := prod3 rfl (fun t1 t2 t3 v1 v2 v3 v h1 h2 h3 h => by
  obtain ⟨s1, o1, l1, f1⟩ := h1
  obtain ⟨u2, rfl, k2, rfl⟩ := h2
  obtain ⟨u3, rfl, k3, rfl⟩ := h3
  have c3 := tokC_one k3 (by decide)
  cases h
  obtain ⟨g1, g2, g3, _⟩ := addComment_spec v1 u2.pos u2.tok o1 l1
  refine ⟨fun w => ?_, g2, fun _ => g3, ?_⟩
  · refine (g1 w).trans ?_
    rw [s1 w, tokC_append, tokC_append, c3, tokC_comment k2]
    simp
  · rw [List.append_assoc]
    exact f1.more (fun _ _ => .inr (.inl ⟨u2, [u3], rfl, .inr k2⟩))
      (fun x r e hx hb => addComment_head _ _ e hx ((okTail_iff _).1 o1 x (by simp [e])).1 hb))

theorem step12 : StepOK ComP 12 := prod1 rfl (fun t1 v1 v h1 h => by
  obtain ⟨c1, n1, q1⟩ := h1
  cases h
  refine ⟨fun w => by show (comL v1.exprs).count w = _; rw [comL_plain q1, c1], plain_tail q1, ?_⟩
  cases he : v1.exprs with
  | nil => exact absurd he n1
  | cons x l =>
    obtain ⟨p1, p2, p3⟩ := q1 x (by simp [he])
    refine ⟨x, l, he, p2, ?_⟩
    cases x with
    | nil => cases p3
    | _ =>
      simp only [comE, comC, List.append_eq_nil_iff] at p1
      simp [Expr.comments, p1])

theorem blockP_before {ts : List Tok} {v : Val} (h : BlockP ts v) : v.expr.comments.before = [] := by
  have := h.2.2.2
  simp only [comC, List.append_eq_nil_iff] at this
  exact this.1.1

theorem step13 : StepOK ComP 13 := prod1 rfl (fun t1 v1 v h1 h => by
  have hb : BlockP t1 v1 := h1
  have hbb := blockP_before hb
  obtain ⟨s1, o1, n1, c1⟩ := hb
  obtain ⟨g1, g2, g3, g4, g5⟩ := extractTrailing_spec (chainLength v1.expr) v1.expr o1
  have h : some { v1 with exprs := (extractTrailing (chainLength v1.expr) v1.expr).1 :: (extractTrailing (chainLength v1.expr) v1.expr).2,
                          last := (extractTrailing (chainLength v1.expr) v1.expr).2.isEmpty || v1.last } = some v := h
  cases h
  have hn : isCommentBlock (extractTrailing (chainLength v1.expr) v1.expr).1 = false := g5.trans n1
  refine ⟨fun w => ?_, ?_, _, _, rfl, hn, by rw [g4]; exact hbb⟩
  · have := g1 w
    have := s1 w
    simp only [comL, List.count_append]
    omega
  · simp only [okTail, Bool.and_eq_true]
    exact ⟨⟨⟨g2, by simp [noSuffix, hn]⟩, by simp [noBefore, hn]⟩, blk_tail g3⟩)

theorem step17 : StepOK ComP 17 := prod3 rfl (fun t1 t2 t3 v1 v2 v3 v h1 h2 h3 h => by
  obtain ⟨c1, p1, p2, p3⟩ := h1
  obtain ⟨u2, rfl, k2, rfl⟩ := h2
  have c2 := tokC_one k2 (by decide)
  obtain ⟨s3, o3⟩ := h3
  obtain ⟨c, sp, n, ps, b, cp, fc, fm, t, he, rfl⟩ := sem18 h
  rw [he] at p1
  simp only [comE, List.append_eq_nil_iff] at p1
  obtain ⟨⟨⟨q1, q2⟩, q3⟩, q4⟩ := p1
  refine ⟨fun w => ?_, o3, rfl, q1⟩
  simp only [comE, q1, q2, q4, List.count_append, List.count_nil, tokC_append, c1, c2, s3 w]
  omega)

theorem step18 : StepOK ComP 18 := prod6 rfl (fun t1 t2 t3 t4 t5 t6 v1 v2 v3 v4 v5 v6 v h1 h2 h3 h4 h5 h6 h => by
  obtain ⟨u1, rfl, k1, rfl⟩ := h1
  have c1 := tokC_one k1 (by decide)
  obtain ⟨c2, p2⟩ := h2
  obtain ⟨u3, rfl, k3, rfl⟩ := h3
  have c3 := tokC_one k3 (by decide)
  obtain ⟨c4, p4⟩ := h4
  obtain ⟨u5, rfl, k5, rfl⟩ := h5
  have c5 := tokC_one k5 (by decide)
  obtain ⟨s6, o6⟩ := h6
  have h : some { Val.ofTok u1 with expr := .forS {} u1.pos v2.expr v4.expr v6.exprs, last := v6.last } = some v := h
  cases h
  refine ⟨fun w => ?_, o6, rfl, rfl⟩
  simp only [comE, comC_empty, p2.1, p4.1, List.count_append, List.count_nil, tokC_append, c1, c2, c3, c4, c5, s6 w])

theorem step19 : StepOK ComP 19 := prod1 rfl (fun t1 v1 v h1 h => by
  cases h
  exact h1)

theorem step20 : StepOK ComP 20 := prod4 rfl (fun t1 t2 t3 t4 v1 v2 v3 v4 v h1 h2 h3 h4 h => by
  obtain ⟨u1, rfl, k1, rfl⟩ := h1
  have c1 := tokC_one k1 (by decide)
  obtain ⟨c2, p2⟩ := h2
  obtain ⟨u3, rfl, k3, rfl⟩ := h3
  have c3 := tokC_one k3 (by decide)
  obtain ⟨s4, o4⟩ := h4
  have h : some { Val.ofTok u1 with expr := .ifS {} u1.pos v2.expr v4.exprs {} [], last := v4.last } = some v := h
  cases h
  refine ⟨⟨fun w => ?_, by simp [okE, okTail, o4], rfl, rfl⟩, Chain.last _ _ _ _ _ rfl⟩
  simp only [comE, comL, comC_empty, p2.1, List.count_append, List.count_nil, tokC_append, c1, c2, c3, s4 w]
  simp [comC])

theorem step21 : StepOK ComP 21 := prod5 rfl (fun t1 t2 t3 t4 t5 v1 v2 v3 v4 v5 v h1 h2 h3 h4 h5 h => by
  obtain ⟨⟨s1, o1, n1, z1⟩, ch1⟩ := h1
  have c2 : tokC t2 = [] := h2
  obtain ⟨c3, p3⟩ := h3
  obtain ⟨u4, rfl, k4, rfl⟩ := h4
  have c4 := tokC_one k4 (by decide)
  obtain ⟨s5, o5⟩ := h5
  have h : (setElse (chainLength v1.expr) v2.pos [.ifS {} v2.pos v3.expr v5.exprs {} []] v1.expr).map
      (fun e => { v1 with expr := e, last := v5.last }) = some v := h
  cases hs : setElse (chainLength v1.expr) v2.pos [.ifS {} v2.pos v3.expr v5.exprs {} []] v1.expr with
  | none => rw [hs] at h; cases h
  | some x =>
    rw [hs] at h
    cases h
    obtain ⟨g1, g2, g3, g4, g5⟩ := setElse_spec _ _ (by simp [okE, okTail, o5, noSuffix, noBefore, isCommentBlock]) _ _ _ ch1 o1 hs
    refine ⟨⟨fun w => ?_, g2, g4, by dsimp only; rw [g3]; exact z1⟩, g5 _ rfl (Chain.last _ _ _ _ _ rfl)⟩
    dsimp only
    rw [g1 w, s1 w]
    simp only [comE, comL, comC_empty, p3.1, List.count_append, List.count_nil, tokC_append, c2, c3, c4, s5 w]
    simp [comC])

theorem step22 : StepOK ComP 22 := prod1 rfl (fun t1 v1 v h1 h => by
  cases h
  exact h1.1)

theorem step23 : StepOK ComP 23 := prod4 rfl (fun t1 t2 t3 t4 v1 v2 v3 v4 v h1 h2 h3 h4 h => by
  obtain ⟨⟨s1, o1, n1, z1⟩, ch1⟩ := h1
  obtain ⟨u2, rfl, k2, rfl⟩ := h2
  have c2 := tokC_one k2 (by decide)
  obtain ⟨u3, rfl, k3, rfl⟩ := h3
  have c3 := tokC_one k3 (by decide)
  obtain ⟨s4, o4⟩ := h4
  have h : (setElse (chainLength v1.expr) u2.pos v4.exprs v1.expr).map (fun e => { v1 with expr := e, last := v4.last }) = some v := h
  cases hs : setElse (chainLength v1.expr) u2.pos v4.exprs v1.expr with
  | none => rw [hs] at h; cases h
  | some x =>
    rw [hs] at h
    cases h
    obtain ⟨g1, g2, g3, g4, g5⟩ := setElse_spec _ _ o4 _ _ _ ch1 o1 hs
    refine ⟨fun w => ?_, g2, g4, by dsimp only; rw [g3]; exact z1⟩
    dsimp only
    rw [g1 w, s1 w]
    simp only [List.count_append, List.count_nil, tokC_append, c2, c3, s4 w]
    omega)

theorem com_all : ∀ r, r < 148 → StepOK ComG r
  | 0, _ => guard step0
  | 1, _ => step1
  | 2, _ => guard step2
  | 3, _ => guard step3
  | 4, _ => guard step4
  | 5, _ => guard step5
  | 6, _ => guard step6
  | 7, _ => guard step7
  | 8, _ => guard step8
  | 9, _ => guard step9
  | 10, _ => guard step10
  | 11, _ => guard step11
  | 12, _ => guard step12
  | 13, _ => guard step13
  | 14, _ => guard step14
  | 15, _ => guard step15
  | 16, _ => guard step16
  | 17, _ => guard step17
  | 18, _ => guard step18
  | 19, _ => guard step19
  | 20, _ => guard step20
  | 21, _ => guard step21
  | 22, _ => guard step22
  | 23, _ => guard step23
  | 24, _ => guard step24
  | 25, _ => guard step25
  | 26, _ => guard step26
  | 27, _ => guard step27
  | 28, _ => guard step28
  | 29, _ => guard step29
  | 30, _ => guard step30
  | 31, _ => guard step31
  | 32, _ => guard step32
  | 33, _ => guard step33
  | 34, _ => guard step34
  | 35, _ => guard step35
  | 36, _ => guard step36
  | 37, _ => guard step37
  | 38, _ => guard step38
  | 39, _ => guard step39
  | 40, _ => guard step40
  | 41, _ => guard step41
  | 42, _ => guard step42
  | 43, _ => guard step43
  | 44, _ => guard step44
  | 45, _ => guard step45
  | 46, _ => guard step46
  | 47, _ => guard step47
  | 48, _ => guard step48
  | 49, _ => guard step49
  | 50, _ => guard step50
  | 51, _ => guard step51
  | 52, _ => guard step52
  | 53, _ => guard step53
  | 54, _ => guard step54
  | 55, _ => guard step55
  | 56, _ => guard step56
  | 57, _ => guard step57
  | 58, _ => guard step58
  | 59, _ => guard step59
  | 60, _ => guard step60
  | 61, _ => guard step61
  | 62, _ => guard step62
  | 63, _ => guard step63
  | 64, _ => guard step64
  | 65, _ => guard step65
  | 66, _ => guard step66
  | 67, _ => guard step67
  | 68, _ => guard step68
  | 69, _ => guard step69
  | 70, _ => guard step70
  | 71, _ => guard step71
  | 72, _ => guard step72
  | 73, _ => guard step73
  | 74, _ => guard step74
  | 75, _ => guard step75
  | 76, _ => guard step76
  | 77, _ => guard step77
  | 78, _ => guard step78
  | 79, _ => guard step79
  | 80, _ => guard step80
  | 81, _ => guard step81
  | 82, _ => guard step82
  | 83, _ => guard step83
  | 84, _ => guard step84
  | 85, _ => guard step85
  | 86, _ => guard step86
  | 87, _ => guard step87
  | 88, _ => guard step88
  | 89, _ => guard step89
  | 90, _ => guard step90
  | 91, _ => guard step91
  | 92, _ => guard step92
  | 93, _ => guard step93
  | 94, _ => guard step94
  | 95, _ => guard step95
  | 96, _ => guard step96
  | 97, _ => guard step97
  | 98, _ => guard step98
  | 99, _ => guard step99
  | 100, _ => guard step100
  | 101, _ => guard step101
  | 102, _ => guard step102
  | 103, _ => guard step103
  | 104, _ => guard step104
  | 105, _ => guard step105
  | 106, _ => guard step106
  | 107, _ => guard step107
  | 108, _ => guard step108
  | 109, _ => guard step109
  | 110, _ => guard step110
  | 111, _ => guard step111
  | 112, _ => guard step112
  | 113, _ => guard step113
  | 114, _ => guard step114
  | 115, _ => guard step115
  | 116, _ => guard step116
  | 117, _ => guard step117
  | 118, _ => guard step118
  | 119, _ => guard step119
  | 120, _ => guard step120
  | 121, _ => guard step121
  | 122, _ => guard step122
  | 123, _ => guard step123
  | 124, _ => guard step124
  | 125, _ => guard step125
  | 126, _ => guard step126
  | 127, _ => guard step127
  | 128, _ => guard step128
  | 129, _ => guard step129
  | 130, _ => guard step130
  | 131, _ => guard step131
  | 132, _ => guard step132
  | 133, _ => guard step133
  | 134, _ => guard step134
  | 135, _ => guard step135
  | 136, _ => guard step136
  | 137, _ => guard step137
  | 138, _ => guard step138
  | 139, _ => guard step139
  | 140, _ => guard step140
  | 141, _ => guard step141
  | 142, _ => guard step142
  | 143, _ => guard step143
  | 144, _ => guard step144
  | 145, _ => guard step145
  | 146, _ => guard step146
  | 147, _ => guard step147
  | n + 148, h => absurd h (by omega)

/-- a parsed file holds exactly the comments that were tokens -/
theorem parse_tokC {ts : List Tok} {v : Val} (h : Deriv (.n .file) ts v) (hi : IndOK ts) (w : Comment) :
    (comL v.exprs).count w = (tokC ts).count w := by
  have := deriv_induct ComG com_all h
  exact (this : IndOK ts → ComP .file ts v) hi w

/-- comments are not empty -/
theorem tiled_comments {pre text ts cs} (h : Props.Lexer.Tiled pre text ts cs) :
    (∀ c ∈ cs, (!c.token.isEmpty) = true) ∧ ∀ c ∈ tokC ts, (!c.token.isEmpty) = true := by
  induction h with
  | eof pre t hk ht => exact ⟨nofun, by rw [tokC_one hk (by decide)]; nofun⟩
  | blank _ _ _ _ _ _ _ ih => exact ih
  | continued _ _ _ _ _ ih => exact ih
  | comment pre text s ts cs _ _ _ ih =>
    refine ⟨fun c hc => ?_, ih.2⟩
    rcases List.mem_cons.1 hc with rfl | hc
    · rfl
    · exact ih.1 c hc
  | tok pre t s ts cs hk _ htx _ ih =>
    refine ⟨ih.1, fun c hc => ?_⟩
    have hc : c ∈ tokC ([t] ++ ts) := hc
    rw [tokC_append] at hc
    rcases List.mem_append.1 hc with hc | hc
    · by_cases hkc : t.kind = K.comment
      · rw [tokC_comment hkc] at hc
        rw [List.mem_singleton.1 hc]
        cases htx with
        | fixed hm =>
          rw [hkc] at hm
          exact absurd hm (fun hm => by
            have key : ∀ q ∈ Props.Lexer.fixedTokens, q.1 ≠ K.comment := by decide
            exact key _ hm rfl)
        | ident c s h1 h2 => exact absurd (hkc.symm.trans h1) (by decide)
        | int c s h1 h2 => exact absurd (hkc.symm.trans h1) (by decide)
        | string _ _ _ h1 => exact absurd (hkc.symm.trans h1) (by decide)
        | comment s h1 h2 => dsimp only; rw [h2]; rfl
      · rw [tokC_one rfl hkc] at hc; cases hc
    · exact ih.2 c hc

/-- **C46** Reading a file loses and duplicates no comment: the comments attached anywhere in the tree (to the file, a statement, an
expression, a closing bracket, before, after or beside it) are exactly the comments in the source, each with its position, whether the
lexer delivered it as a token or put it aside. (Comments with empty text are the blank lines that are remembered for the layout.) -/
theorem C46_file (fuel : Nat) (type : FileType) (data : Bytes) (f : File) (h : parseFile fuel type data = some f) :
    ∃ ts cs, Props.Lexer.Tiled [] (data ++ [10]) ts cs ∧
      List.Perm ((comF f).filter (fun c => !c.token.isEmpty)) (tokC ts ++ cs) := by
  unfold parseFile at h
  cases ht : tokens data with
  | ok ts st =>
    rw [ht] at h
    dsimp only at h
    cases hr : run fuel (initCfg ts) with
    | none => rw [hr] at h; cases h
    | some l =>
      rw [hr] at h
      cases h
      obtain ⟨_, v, hv, rfl⟩ := C60_sound fuel data ts st l ht hr
      obtain ⟨cs, h1, h2⟩ := Props.Lexer.C48_tiles data ts st ht
      refine ⟨ts, cs, h1, ?_⟩
      have h3 := C46_assign v.exprs st.suffixComments st.lineComments
      have h4 := parse_tokC hv (fun a t u b e k => Props.Lexer.C47_block_start data ts st ht a t u b e k)
      have h5 : List.Perm (comL v.exprs) (tokC ts) := List.perm_iff_count.2 h4
      refine (h3.filter _).trans ?_
      rw [List.filter_append, List.filter_append]
      have h6 := tiled_comments h1
      have h7 : (comL v.exprs).filter (fun c => !c.token.isEmpty) = comL v.exprs :=
        List.filter_eq_self.2 (fun c hc => h6.2 c (h5.mem_iff.1 hc))
      have h8 : st.suffixComments.filter (fun c => !c.token.isEmpty) = st.suffixComments :=
        List.filter_eq_self.2 (fun c hc => h6.1 c (h2.mem_iff.1 (by simp [hc])))
      rw [h7, h8, List.append_assoc]
      exact h5.append ((List.perm_append_comm).trans h2)
  | _ => rw [ht] at h; cases h

/-! ## A concrete case -/

/-- the text of the comments of a parsed file -/
def commentTexts (data : Bytes) : Option (List Bytes) := (parseFile 200 .default data).map (fun f => (comF f).map (·.token))

example : commentTexts b!"# a\nif x: # b\n  # c\n  y = [ # d\n    1, # e\n  ]\n  # f\n # g\nelse:\n  z()\n# h\n" =
    some [b!"# a", b!"# b", b!"# c", b!"# f", b!"# g", b!"# d", b!"# e", b!"# h"] := by decide +kernel

end Verif.Props.Comments
