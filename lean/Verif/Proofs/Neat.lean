import Verif.Props.PrintedSpec
import Verif.Props.Comments
/-
Where comments are in a tree after they were handed out.
-/
namespace Verif.Printed
open Verif Verif.Syntax Verif.Print Verif.Comm Verif.Parser Verif.Props.Comments

/-- no comments at a closing bracket but before it -/
def neatEnd (e : EndN) : Bool := e.comments.suffix.isEmpty && e.comments.after.isEmpty

/-- the same for an `else`, which may have comments after it -/
def neatElse (e : EndN) (f : List Expr) : Bool := (!f.isEmpty || e.comments.suffix.isEmpty) && e.comments.after.isEmpty

/-- the names of a load statement -/
def neatLoad : List IdentN → List IdentN → Bool
  | f :: fs, t :: ts => f.comments.after.isEmpty && t.comments.after.isEmpty && neatLoad fs ts
  | [], [] => true
  | _, _ => false

mutual
/-- all comments are in places where they are shown, or belong to `lost`; nothing is said about the comments after the node itself -/
def neat : Expr → Bool
  | .nil => true
  | .file .. => false
  | .commentBlock c _ => c.suffix.isEmpty
  | .literal .. | .ident .. | .branch .. | .string .. => true
  | .typedIdent _ i t => i.comments.after.isEmpty && (neat t && t.comments.after.isEmpty)
  | .call _ x _ l e _ _ => (neat x && x.comments.after.isEmpty) && neatL l && neatEnd e
  | .dot _ x .. => neat x && x.comments.after.isEmpty
  | .compr _ _ _ b cl _ e => (neat b && b.comments.after.isEmpty) && neatL cl && neatEnd e
  | .forClause _ _ v _ x => (neat v && v.comments.after.isEmpty) && (neat x && x.comments.after.isEmpty)
  | .ifClause _ _ x => neat x && x.comments.after.isEmpty
  | .keyValue _ k _ v => (neat k && k.comments.after.isEmpty) && (neat v && v.comments.after.isEmpty)
  | .dict _ _ l e _ => neatL l && neatEnd e
  | .list _ _ l e _ => neatL l && neatEnd e
  | .set _ _ l e _ => neatL l && neatEnd e
  | .tuple _ _ _ l e _ _ => neatL l && neatEnd e
  | .unary _ _ _ x => neat x && x.comments.after.isEmpty
  | .binary _ x _ _ _ y => (neat x && x.comments.after.isEmpty) && (neat y && y.comments.after.isEmpty)
  | .assign _ x _ _ _ y => (neat x && x.comments.after.isEmpty) && (neat y && y.comments.after.isEmpty)
  | .paren _ _ x e _ => (neat x && x.comments.after.isEmpty) && neatEnd e
  | .slice _ x _ f _ t p s _ => (neat x && x.comments.after.isEmpty) && (neat f && f.comments.after.isEmpty) && (neat t && t.comments.after.isEmpty) &&
      (neat s && s.comments.after.isEmpty) && (p.byte != 0 || s.isNil)
  | .index _ x _ y _ => (neat x && x.comments.after.isEmpty) && (neat y && y.comments.after.isEmpty)
  | .lambda _ _ ps b => neatL ps && neatL b && (b.length == 1)
  | .cond _ t _ te _ e => (neat t && t.comments.after.isEmpty) && (neat te && te.comments.after.isEmpty) && (neat e && e.comments.after.isEmpty)
  | .load _ _ m fs ts r _ => m.comments.after.isEmpty && neatLoad fs ts && neatEnd r
  | .defS _ _ _ ps b _ _ _ t => neatL ps && neatS b && (neat t && t.comments.after.isEmpty)
  | .returnS _ _ r => neat r && r.comments.after.isEmpty
  | .forS _ _ v x b => (neat v && v.comments.after.isEmpty) && (neat x && x.comments.after.isEmpty) && neatS b
  | .ifS c _ x t e f => c.suffix.isEmpty && (neat x && x.comments.after.isEmpty) && neatS t && neatElse e f && neatS f
/-- a list of expressions -/
def neatL : List Expr → Bool
  | [] => true
  | x :: l => (neat x && x.comments.after.isEmpty) && neatL l
/-- a list of statements -/
def neatS : List Expr → Bool
  | [] => true
  | x :: l => neat x && neatS l
end

/-! ## All comments are shown or lost -/

set_option linter.unusedSimpArgs false

set_option linter.unusedSimpArgs false

theorem load_count (d : Comment) : ∀ fs ts : List IdentN, neatLoad fs ts = true →
    (comI fs).count d + (comI ts).count d = (shownLoad fs ts).count d + (lostLoad fs ts).count d := by
  intro fs
  induction fs with
  | nil => intro ts h; cases ts with | nil => rfl | cons => cases h
  | cons f fs ih =>
    intro ts h
    cases ts with
    | nil => cases h
    | cons t ts =>
      unfold neatLoad at h
      simp only [Bool.and_eq_true, List.isEmpty_iff] at h
      have := ih ts h.2
      unfold comI shownLoad lostLoad comC
      rw [h.1.1, h.1.2]
      split <;> simp only [around, List.count_append, List.count_nil, List.append_nil, List.nil_append] <;> omega

theorem shownElse_count (d : Comment) (e : EndN) (f : List Expr) (hf : neatS f = true) (hne : f ≠ []) :
    (shownElse e f).count d + (lostElif e f).count d = e.comments.suffix.count d + (shownS f).count d := by
  cases f with
  | nil => exact absurd rfl hne
  | cons x l =>
    cases l with
    | cons y l => 
      have e1 : lostElif e (x :: y :: l) = [] := by cases x <;> rfl
      have e2 : shownElse e (x :: y :: l) = e.comments.suffix ++ (shown x ++ (x.comments.after ++ shownS (y :: l))) := by
        cases x <;> simp only [shownElse]
      rw [e1, e2]
      simp only [shownS, List.count_append, List.count_nil]
      omega
    | nil =>
      by_cases hi : ∃ c2 p2 x2 t2 e2 f2, x = .ifS c2 p2 x2 t2 e2 f2
      · obtain ⟨c2, p2, x2, t2, e2, f2, rfl⟩ := hi
        simp only [neatS, neat, Bool.and_eq_true, List.isEmpty_iff] at hf
        have e1 : lostElif e [.ifS c2 p2 x2 t2 e2 f2] = if e.comments.suffix.isEmpty && c2.before.isEmpty then c2.after else [] := rfl
        rw [e1, shownElse]
        have e3 : (Expr.ifS c2 p2 x2 t2 e2 f2).comments = c2 := rfl
        by_cases hc : (e.comments.suffix.isEmpty && c2.before.isEmpty) = true
        · rw [if_pos hc, if_pos hc]
          simp only [Bool.and_eq_true, List.isEmpty_iff] at hc
          simp only [shownS, shown, around, e3, hc, hf, List.count_append, List.count_nil, List.append_nil, List.nil_append]
          omega
        · rw [if_neg hc, if_neg hc]
          simp only [shownS, shown, around, e3, List.count_append, List.count_nil]
          omega
      · have e1 : lostElif e [x] = [] := by
          cases x <;> first | rfl | exact absurd ⟨_, _, _, _, _, _, rfl⟩ hi
        have e2 : shownElse e [x] = e.comments.suffix ++ (shown x ++ (x.comments.after ++ shownS [])) := by
          cases x <;> first | exact absurd ⟨_, _, _, _, _, _, rfl⟩ hi | simp only [shownElse]
        rw [e1, e2]
        simp only [shownS, List.count_append, List.count_nil]
        omega

/-- the comments after a node -/
def afterC (x : Expr) : List Comment := x.comments.after

theorem ac_commentBlock {a b} : afterC (.commentBlock a b) = a.after := rfl
theorem ac_typedIdent {a b c} : afterC (.typedIdent a b c) = a.after := rfl
theorem ac_branch {a b c} : afterC (.branch a b c) = a.after := rfl
theorem ac_literal {a b c} : afterC (.literal a b c) = a.after := rfl
theorem ac_call {a b c d e f g} : afterC (.call a b c d e f g) = a.after := rfl
theorem ac_dot {a b c d e} : afterC (.dot a b c d e) = a.after := rfl
theorem ac_compr {a b c d e f g} : afterC (.compr a b c d e f g) = a.after := rfl
theorem ac_forClause {a b c d e} : afterC (.forClause a b c d e) = a.after := rfl
theorem ac_ifClause {a b c} : afterC (.ifClause a b c) = a.after := rfl
theorem ac_keyValue {a b c d} : afterC (.keyValue a b c d) = a.after := rfl
theorem ac_dict {a b c d e} : afterC (.dict a b c d e) = a.after := rfl
theorem ac_list {a b c d e} : afterC (.list a b c d e) = a.after := rfl
theorem ac_set {a b c d e} : afterC (.set a b c d e) = a.after := rfl
theorem ac_tuple {a b c d e f g} : afterC (.tuple a b c d e f g) = a.after := rfl
theorem ac_unary {a b c d} : afterC (.unary a b c d) = a.after := rfl
theorem ac_binary {a b c d e f} : afterC (.binary a b c d e f) = a.after := rfl
theorem ac_assign {a b c d e f} : afterC (.assign a b c d e f) = a.after := rfl
theorem ac_paren {a b c d e} : afterC (.paren a b c d e) = a.after := rfl
theorem ac_slice {a b c d e f g h i} : afterC (.slice a b c d e f g h i) = a.after := rfl
theorem ac_index {a b c d e} : afterC (.index a b c d e) = a.after := rfl
theorem ac_lambda {a b c d} : afterC (.lambda a b c d) = a.after := rfl
theorem ac_cond {a b c d e f} : afterC (.cond a b c d e f) = a.after := rfl
theorem ac_load {a b c d e f g} : afterC (.load a b c d e f g) = a.after := rfl
theorem ac_defS {a b c d e f g h i} : afterC (.defS a b c d e f g h i) = a.after := rfl
theorem ac_returnS {a b c} : afterC (.returnS a b c) = a.after := rfl
theorem ac_forS {a b c d e} : afterC (.forS a b c d e) = a.after := rfl
theorem ac_ifS {a b c d e f} : afterC (.ifS a b c d e f) = a.after := rfl
theorem ac_file {a b} : afterC (.file a b) = a.after := rfl
theorem ac_nil : afterC .nil = [] := rfl
theorem ac_ident {n} : afterC (.ident n) = n.comments.after := rfl
theorem ac_string {n} : afterC (.string n) = n.comments.after := rfl

theorem com_count' (d : Comment) (x : Expr) : neat x = true → (comE x).count d = (shown x).count d + (afterC x).count d + (lost x).count d := by
  refine Expr.rec (motive_1 := fun x => neat x = true → (comE x).count d = (shown x).count d + (afterC x).count d + (lost x).count d)
    (motive_2 := fun l => (neatL l = true → (comL l).count d = (shownL l).count d + (lostL l).count d) ∧
      (neatS l = true → (comL l).count d = (shownS l).count d + (lostL l).count d))
    ?_ ?_ ?_ ?_ ?_ ?_ ?_ ?_ ?_ ?_ ?_ ?_ ?_ ?_ ?_ ?_ ?_ ?_ ?_ ?_ ?_ ?_ ?_ ?_ ?_ ?_ ?_ ?_ ?_ ?_ ?_ ?_ ?_ x
  case refine_22 =>  -- slice
    intro c x _ f _ t p s _ hx hf ht hs hn
    simp only [neat, ← afterC.eq_1, Bool.and_eq_true, List.isEmpty_iff] at hn
    have hlast := hn.2
    have := hx hn.1.1.1.1.1; have := hf hn.1.1.1.2.1; have := ht hn.1.1.2.1; have := hs hn.1.2.1
    simp only [hn.1.1.1.1.2, hn.1.1.1.2.2, hn.1.1.2.2, hn.1.2.2, List.count_nil] at *
    simp only [comE, shown, lost, around, comC, ac_slice, List.count_append]
    by_cases hp : p.byte = 0
    · have : s.isNil = true := by simpa [hp] using hlast
      cases s <;> first | (simp [hp, shown, lost, comE] at *; omega) | cases this
    · rw [if_pos hp]; omega
  case refine_24 =>  -- lambda
    intro c _ ps b hps hb hn
    simp only [neat, Bool.and_eq_true] at hn
    match b, hn with
    | [], hn => simp at hn
    | [x], hn =>
      have := hps.1 hn.1.1; have := hb.1 hn.1.2
      simp only [comE, shown, lost, around, comC, ac_lambda, List.count_append, shownH, shownL, List.count_nil] at *; omega
    | _ :: _ :: _, hn => simp at hn
  case refine_26 =>  -- load
    intro c _ m fs ts r _ hn
    simp only [neat, neatEnd, Bool.and_eq_true, List.isEmpty_iff] at hn
    have := load_count d fs ts hn.1.2
    simp only [comE, shown, lost, around, comC, ac_load, List.count_append, hn, List.count_nil]; omega
  case refine_30 =>  -- if
    intro c _ x t e f hx ht hf hn
    simp only [neat, neatElse, ← afterC.eq_1, Bool.and_eq_true, List.isEmpty_iff] at hn
    have hlast := hn.2
    have hel := hn.1.2.1
    have := hx hn.1.1.1.2.1; have := ht.2 hn.1.1.2; have := hf.2 hn.2
    simp only [comE, shown, lost, around, comC, ac_ifS, List.count_append, hn.1.1.1.1, hn.1.1.1.2.2, hn.1.2.2, List.count_nil] at *
    by_cases hne : f = []
    · subst hne
      have : e.comments.suffix = [] := by simpa using hel
      simp only [this, shownElse, lostElif, comL, lostL, List.count_nil] at *; omega
    · have := shownElse_count d e f hlast hne
      omega
  case refine_32 => exact ⟨fun _ => rfl, fun _ => rfl⟩
  case refine_33 =>
    intro x l hx hl
    constructor
    · intro hn
      simp only [neatL, ← afterC.eq_1, Bool.and_eq_true, List.isEmpty_iff] at hn
      have := hx hn.1.1; have := hl.1 hn.2
      simp only [comL, shownL, lostL, List.count_append, hn, List.count_nil] at *; omega
    · intro hn
      simp only [neatS, ← afterC.eq_1, Bool.and_eq_true, List.isEmpty_iff] at hn
      have := hx hn.1; have := hl.2 hn.2
      simp only [comL, shownS, lostL, List.count_append, ← afterC.eq_1] at *; omega
  all_goals intros
  all_goals rename_i hn
  all_goals simp only [neat, neatEnd, ← afterC.eq_1, Bool.and_eq_true, List.isEmpty_iff] at hn
  all_goals first
    | (exfalso; exact Bool.noConfusion hn)
    | (simp_all only [true_implies, forall_const, comE, shown, lost, around, comC, List.count_append, List.count_nil, ac_commentBlock, ac_typedIdent, ac_branch, ac_literal, ac_call, ac_dot, ac_compr, ac_forClause, ac_ifClause, ac_keyValue, ac_dict, ac_list, ac_set, ac_tuple, ac_unary, ac_binary, ac_assign, ac_paren, ac_slice, ac_index, ac_lambda, ac_cond, ac_load, ac_defS, ac_returnS, ac_forS, ac_ifS, ac_file, ac_nil, ac_ident, ac_string]; done)
    | (simp_all only [true_implies, forall_const, comE, shown, lost, around, comC, List.count_append, List.count_nil, ac_commentBlock, ac_typedIdent, ac_branch, ac_literal, ac_call, ac_dot, ac_compr, ac_forClause, ac_ifClause, ac_keyValue, ac_dict, ac_list, ac_set, ac_tuple, ac_unary, ac_binary, ac_assign, ac_paren, ac_slice, ac_index, ac_lambda, ac_cond, ac_load, ac_defS, ac_returnS, ac_forS, ac_ifS, ac_file, ac_nil, ac_ident, ac_string]; omega)

theorem com_count (d : Comment) (x : Expr) (h : neat x = true) :
    (comE x).count d = (shown x).count d + x.comments.after.count d + (lost x).count d := com_count' d x h

theorem comS_count (d : Comment) : ∀ l : List Expr, neatS l = true → (comL l).count d = (shownS l).count d + (lostL l).count d
  | [], _ => rfl
  | x :: l, h => by
    simp only [neatS, Bool.and_eq_true] at h
    have := com_count d x h.1
    have := comS_count d l h.2
    simp only [comL, shownS, lostL, List.count_append]; omega


end Verif.Printed
