import Verif.Proofs.RoundComm
import Verif.Proofs.ParsedFile
/-
The tree without its comments; handing out comments does not change it.
-/
namespace Verif.Round
open Verif Verif.Syntax Verif.Lexer Verif.Print Verif.Parser Verif.Comm Verif.Props.Comments

def stripEnd (e : EndN) : EndN := { e with comments := {} }
def stripI (n : IdentN) : IdentN := { n with comments := {} }
def stripS (n : StringN) : StringN := { n with comments := {} }

mutual
/-- the tree without comments -/
def strip : Expr → Expr
  | .nil => .nil
  | .commentBlock _ p => .commentBlock {} p
  | .ident n => .ident (stripI n)
  | .typedIdent _ i t => .typedIdent {} (stripI i) (strip t)
  | .branch _ t p => .branch {} t p
  | .literal _ p t => .literal {} p t
  | .string n => .string (stripS n)
  | .call _ x p l e a b => .call {} (strip x) p (stripL l) (stripEnd e) a b
  | .dot _ x p q n => .dot {} (strip x) p q n
  | .compr _ u p b cl f e => .compr {} u p (strip b) (stripL cl) f (stripEnd e)
  | .forClause _ p v q x => .forClause {} p (strip v) q (strip x)
  | .ifClause _ p x => .ifClause {} p (strip x)
  | .keyValue _ k p v => .keyValue {} (strip k) p (strip v)
  | .dict _ p l e f => .dict {} p (stripL l) (stripEnd e) f
  | .list _ p l e f => .list {} p (stripL l) (stripEnd e) f
  | .set _ p l e f => .set {} p (stripL l) (stripEnd e) f
  | .tuple _ n p l e a b => .tuple {} n p (stripL l) (stripEnd e) a b
  | .unary _ p o x => .unary {} p o (strip x)
  | .binary _ x p o l y => .binary {} (strip x) p o l (strip y)
  | .assign _ x p o l y => .assign {} (strip x) p o l (strip y)
  | .paren _ p x e f => .paren {} p (strip x) (stripEnd e) f
  | .slice _ x p f c1 t c2 s e => .slice {} (strip x) p (strip f) c1 (strip t) c2 (strip s) e
  | .index _ x p y e => .index {} (strip x) p (strip y) e
  | .lambda _ p ps b => .lambda {} p (stripL ps) (stripL b)
  | .cond _ t p te q e => .cond {} (strip t) p (strip te) q (strip e)
  | .load _ p m f t r fc => .load {} p (stripS m) (f.map stripI) (t.map stripI) (stripEnd r) fc
  | .defS _ p n ps b q a d t => .defS {} p n (stripL ps) (stripL b) q a d (strip t)
  | .returnS _ p r => .returnS {} p (strip r)
  | .forS _ p v x b => .forS {} p (strip v) (strip x) (stripL b)
  | .ifS _ p x t e f => .ifS {} p (strip x) (stripL t) (stripEnd e) (stripL f)
  | .file _ l => .file {} (stripL l)
def stripL : List Expr → List Expr
  | [] => []
  | x :: l => strip x :: stripL l
end

theorem stripL_eq (l : List Expr) : stripL l = l.map strip := by
  induction l with
  | nil => simp [stripL]
  | cons x l ih => simp [stripL, ih]

/-! ## Trees without comments -/

theorem stripEnd_id {e : EndN} (h : e.comments = {}) : stripEnd e = e := by cases e; dsimp only at h; subst h; rfl
theorem stripI_id {e : IdentN} (h : e.comments = {}) : stripI e = e := by cases e; dsimp only at h; subst h; rfl
theorem stripS_id {e : StringN} (h : e.comments = {}) : stripS e = e := by cases e; dsimp only at h; subst h; rfl
theorem stripIs_id : ∀ {l : List IdentN}, comI l = [] → l.map stripI = l := by
  intro l
  induction l with
  | nil => intro _; rfl
  | cons x l ih =>
    intro h
    simp only [comI, List.append_eq_nil_iff] at h
    rw [List.map_cons, ih h.2, stripI_id (comC_nil h.1)]

theorem strip_id (x : Expr) : comE x = [] → strip x = x := by
  refine Expr.rec (motive_1 := fun x => comE x = [] → strip x = x) (motive_2 := fun l => comL l = [] → stripL l = l)
    ?_ ?_ ?_ ?_ ?_ ?_ ?_ ?_ ?_ ?_ ?_ ?_ ?_ ?_ ?_ ?_ ?_ ?_ ?_ ?_ ?_ ?_ ?_ ?_ ?_ ?_ ?_ ?_ ?_ ?_ ?_ ?_ ?_ x
  all_goals intros
  all_goals simp only [comE, comL, List.append_eq_nil_iff, comC_iff] at *
  all_goals simp_all [strip, stripL, stripEnd_id, stripI_id, stripS_id, stripIs_id]

theorem stripL_id : ∀ {l : List Expr}, comL l = [] → stripL l = l := by
  intro l
  induction l with
  | nil => intro _; simp [stripL]
  | cons x l ih =>
    intro h
    simp only [comL, List.append_eq_nil_iff] at h
    rw [stripL, ih h.2, strip_id x h.1]

theorem strip_set (x : Expr) (c : Comments) : strip (x.setComments c) = strip x := by cases x <;> simp [Expr.setComments, strip, stripI, stripS]

/-- a tree with comments at the root only -/
theorem strip_root {x : Expr} (h : comE (x.setComments {}) = []) : strip x = x.setComments {} := by
  rw [← strip_set x {}, strip_id _ h]

/-! ## Handing out comments -/

theorem strip_sufEnd (e : EndN) (l) : stripEnd (sufEnd e l).1 = stripEnd e := rfl
theorem strip_sufI (e : IdentN) (l) : stripI (sufIdent e l).1 = stripI e := rfl
theorem strip_sufS (e : StringN) (l) : stripS (sufString e l).1 = stripS e := rfl
theorem strip_linEnd (e : EndN) (l) : stripEnd (linEnd e l).1 = stripEnd e := rfl
theorem strip_linI (e : IdentN) (l) : stripI (linIdent e l).1 = stripI e := rfl
theorem strip_linS (e : StringN) (l) : stripS (linString e l).1 = stripS e := rfl

theorem strip_sufLoad : ∀ (fs ts : List IdentN) (l), (sufLoad fs ts l).1.map stripI = fs.map stripI ∧ (sufLoad fs ts l).2.1.map stripI = ts.map stripI
  | [], _, _ => by unfold sufLoad; exact ⟨rfl, rfl⟩
  | _ :: _, [], _ => by unfold sufLoad; exact ⟨rfl, rfl⟩
  | f :: fs, t :: ts, l => by
    have ih := strip_sufLoad fs ts l
    unfold sufLoad
    simp only [List.map_cons, ih, strip_sufI]
    exact ⟨trivial, trivial⟩

theorem strip_linLoad : ∀ (fs ts : List IdentN) (l), (linLoad fs ts l).1.map stripI = fs.map stripI ∧ (linLoad fs ts l).2.1.map stripI = ts.map stripI
  | [], _, _ => by unfold linLoad; exact ⟨rfl, rfl⟩
  | _ :: _, [], _ => by unfold linLoad; exact ⟨rfl, rfl⟩
  | f :: fs, t :: ts, l => by
    unfold linLoad
    simp only [List.map_cons, strip_linLoad fs ts _, strip_linI]
    exact ⟨trivial, trivial⟩

theorem strip_suf (x : Expr) : ∀ l, strip (sufE x l).1 = strip x := by
  refine Expr.rec (motive_1 := fun x => ∀ l, strip (sufE x l).1 = strip x) (motive_2 := fun xs => ∀ l, stripL (sufL xs l).1 = stripL xs)
    ?_ ?_ ?_ ?_ ?_ ?_ ?_ ?_ ?_ ?_ ?_ ?_ ?_ ?_ ?_ ?_ ?_ ?_ ?_ ?_ ?_ ?_ ?_ ?_ ?_ ?_ ?_ ?_ ?_ ?_ ?_ ?_ ?_ x
  all_goals intros
  all_goals simp_all [sufE, sufL, strip, stripL, strip_sufEnd, strip_sufI, strip_sufS, strip_sufLoad]
  all_goals (split <;> first | rfl | exact strip_sufEnd _ _)

theorem strip_lin (x : Expr) : ∀ l, strip (linE x l).1 = strip x := by
  refine Expr.rec (motive_1 := fun x => ∀ l, strip (linE x l).1 = strip x) (motive_2 := fun xs => ∀ l, stripL (linL xs l).1 = stripL xs)
    ?_ ?_ ?_ ?_ ?_ ?_ ?_ ?_ ?_ ?_ ?_ ?_ ?_ ?_ ?_ ?_ ?_ ?_ ?_ ?_ ?_ ?_ ?_ ?_ ?_ ?_ ?_ ?_ ?_ ?_ ?_ ?_ ?_ x
  all_goals intros
  all_goals simp_all [linE, linL, strip, stripL, strip_linEnd, strip_linI, strip_linS, strip_linLoad]
  all_goals (split <;> first | rfl | exact strip_linEnd _ _)

theorem stripL_suf : ∀ (x : List Expr) (l), stripL (sufL x l).1 = stripL x := by
  intro x
  induction x with
  | nil => intro l; simp [sufL]
  | cons a x ih => intro l; simp only [sufL, stripL, ih, strip_suf]

theorem stripL_lin : ∀ (x : List Expr) (l), stripL (linL x l).1 = stripL x := by
  intro x
  induction x with
  | nil => intro l; simp [linL]
  | cons a x ih => intro l; simp only [linL, stripL, ih, strip_lin]

theorem strip_assign (l : List Expr) (s c : List Comment) : stripL (assign l s c).2 = stripL l := by
  unfold assign
  simp only [stripL_lin, stripL_suf]

end Verif.Round
