import Verif.Proofs.SpanStep
import Verif.Model.Comments
/-
C97: assigning comments changes no span.
-/
namespace Verif.Props.Spans
open Verif Verif.Syntax Verif.Comm

/-- `y` lies where `x` lies -/
structure Ok (text : Bytes) (x y : Expr) : Prop where
  start : y.startPos = x.startPos
  end_ : y.endPos = x.endPos
  isNil : y.isNil = x.isNil
  nested : Nested text x → Nested text y

/-- the same for lists -/
inductive OkL (text : Bytes) : List Expr → List Expr → Prop
  | nil : OkL text [] []
  | cons {x y l l'} : Ok text x y → OkL text l l' → OkL text (x :: l) (y :: l')

variable {text : Bytes}

theorem OkL.append {a b a' b'} (h1 : OkL text a a') (h2 : OkL text b b') : OkL text (a ++ b) (a' ++ b') := by
  induction h1 with
  | nil => exact h2
  | cons h _ ih => exact .cons h ih

theorem OkL.order {a b} (h : OkL text a b) {lo hi} (ho : InOrder lo a hi) : InOrder lo b hi := by
  induction h generalizing lo with
  | nil => exact ho
  | cons h _ ih =>
    refine ⟨by rw [h.start]; exact ho.1, by rw [h.start, h.end_]; exact ho.2.1, ?_⟩
    rw [h.end_]
    exact ih ho.2.2

theorem OkL.nested {a b} (h : OkL text a b) (hn : ∀ x ∈ a, Nested text x) : ∀ x ∈ b, Nested text x := by
  induction h with
  | nil => exact nofun
  | cons h _ ih =>
    intro z hz
    rcases List.mem_cons.1 hz with rfl | hz
    · exact h.nested (hn _ (List.mem_cons_self ..))
    · exact ih (fun x hx => hn x (List.mem_cons_of_mem _ hx)) z hz

theorem OkL.opt {x y} (h : Ok text x y) : OkL text (opt x) (opt y) := by
  unfold Spans.opt
  rw [h.isNil]
  split
  · exact .nil
  · exact .cons h .nil

theorem OkL.head {a b} (h : OkL text a b) : startPosHead b = startPosHead a := by
  cases h with
  | nil => rfl
  | cons h _ => exact h.start

theorem OkL.last {a b} (h : OkL text a b) : endPosLast b = endPosLast a := by
  induction h with
  | nil => rfl
  | cons h t ih =>
    cases t with
    | nil => exact h.end_
    | cons _ _ => exact ih

theorem OkL.allNil {a b} (h : OkL text a b) : b.all (·.isNil) = a.all (·.isNil) := by
  induction h with
  | nil => rfl
  | cons h _ ih => rw [List.all_cons, List.all_cons, ih, h.isNil]

theorem OkL.stmts {a b} (h : OkL text a b) : stmtsEnd b = stmtsEnd a := by
  induction h with
  | nil => rfl
  | cons h t ih => rw [stmtsEnd, stmtsEnd, t.allNil, h.isNil, h.end_, ih]

theorem OkL.empty {a b} (h : OkL text a b) : b.isEmpty = a.isEmpty := by cases h <;> rfl

theorem OkL.ne {a b} (h : OkL text a b) (hn : a ≠ []) : b ≠ [] := by
  cases h with
  | nil => exact hn
  | cons _ _ => simp

theorem OkL.ne' {a b} (h : OkL text a b) (hn : b ≠ []) : a ≠ [] := by
  cases h with
  | nil => exact hn
  | cons _ _ => simp

theorem okNode {e e' : Expr} (h1 : e'.startPos = e.startPos) (h2 : e'.endPos = e.endPos) (h3 : e'.isNil = e.isNil)
    (h4 : Located text e → Located text e') (h5 : OkL text (kids e) (kids e')) : Ok text e e' :=
  ⟨h1, h2, h3, fun h => .mk e' (h4 h.located) (by rw [h1, h2]; exact h5.order h.order) (h5.nested h.kid)⟩

theorem Ok.refl (x : Expr) : Ok text x x := ⟨rfl, rfl, rfl, id⟩

theorem Ok.trans {x y z : Expr} (h1 : Ok text x y) (h2 : Ok text y z) : Ok text x z :=
  ⟨h2.start.trans h1.start, h2.end_.trans h1.end_, h2.isNil.trans h1.isNil, fun h => h2.nested (h1.nested h)⟩

theorem okIdent (n : IdentN) (c : Comments) : Ok text (.ident n) (.ident { n with comments := c }) :=
  okNode rfl rfl rfl id .nil
theorem okString (n : StringN) (c : Comments) : Ok text (.string n) (.string { n with comments := c }) :=
  okNode rfl rfl rfl id .nil

theorem okUnary {c c' p o x y} (h : Ok text x y) : Ok text (.unary c p o x) (.unary c' p o y) :=
  okNode rfl (by simp only [Expr.endPos]; rw [h.isNil, h.end_]) rfl (fun g => ⟨g.1, fun e => g.2 (h.isNil ▸ e)⟩) (OkL.opt h)

theorem okReturn {c c' p x y} (h : Ok text x y) : Ok text (.returnS c p x) (.returnS c' p y) :=
  okNode rfl (by simp only [Expr.endPos]; rw [h.isNil, h.end_]) rfl id (OkL.opt h)

theorem okFile {c c' l l'} (h : OkL text l l') : Ok text (.file c l) (.file c' l') :=
  okNode (by simp only [Expr.startPos]; rw [h.empty]) (by simp only [Expr.endPos]; rw [h.empty, h.stmts]) rfl id h

theorem okTuple {c c' nb s l l' e e' a b} (h : OkL text l l') (he : nb = true ∨ e'.pos = e.pos) :
    Ok text (.tuple c nb s l e a b) (.tuple c' nb s l' e' a b) := by
  cases nb with
  | true =>
    exact okNode (by simp only [Expr.startPos, if_true]; exact h.head) (by simp only [Expr.endPos, if_true]; exact h.last) rfl
      (fun g => (h.ne g : l' ≠ [])) h
  | false =>
    have he : e'.pos = e.pos := he.elim (fun h => nomatch h) id
    exact okNode rfl (by simp only [Expr.endPos, EndN.endPos, Bool.false_eq_true, if_false, he]) rfl
      (fun g => by simp only [Located, Bool.false_eq_true, if_false] at g ⊢; rw [he]; exact g) h

theorem okIf {c c' p x y t t' e e' f f'} (hx : Ok text x y) (ht : OkL text t t') (hf : OkL text f f') (he : e'.pos = e.pos) :
    Ok text (.ifS c p x t e f) (.ifS c' p y t' e' f') :=
  okNode rfl (by simp only [Expr.endPos]; rw [hf.empty, ht.stmts, hf.stmts]) rfl
    (fun g => ⟨g.1, ht.ne g.2.1, fun n => by rw [he]; exact g.2.2 (hf.ne' n)⟩) (.cons hx (ht.append hf))

theorem okDef {c c' p n ps ps' b b' q a d t t'} (hp : OkL text ps ps') (hb : OkL text b b') (ht : Ok text t t') :
    Ok text (.defS c p n ps b q a d t) (.defS c' p n ps' b' q a d t') :=
  okNode rfl hb.last rfl (fun g => ⟨g.1, g.2.1, hb.ne g.2.2⟩) ((hp.append (OkL.opt ht)).append hb)

mutual
theorem suf_ok : ∀ (x : Expr) (l : List Comment), Ok text x (sufE x l).1
  | .nil, l => Ok.refl _
  | .commentBlock c s, l => by simp only [sufE]; exact okNode rfl rfl rfl id .nil
  | .ident n, l => by simp only [sufE]; exact okIdent _ _
  | .typedIdent c i t, l => by simp only [sufE]; exact okNode rfl (suf_ok t _).end_ rfl id (.cons (Ok.refl _) (.cons (suf_ok t _) .nil))
  | .branch c t p, l => by simp only [sufE]; exact okNode rfl rfl rfl id .nil
  | .literal c t p, l => by simp only [sufE]; exact okNode rfl rfl rfl id .nil
  | .string n, l => by simp only [sufE]; exact okString _ _
  | .call c x p xs e a b, l => by simp only [sufE]; exact okNode (suf_ok x _).start rfl rfl id (.cons (suf_ok x _) (sufL_ok xs _))
  | .dot c x d n s, l => by simp only [sufE]; exact okNode (suf_ok x _).start rfl rfl id (.cons (suf_ok x _) .nil)
  | .compr c cu lb b cl f e, l => by simp only [sufE]; exact okNode rfl rfl rfl id (.cons (suf_ok b _) (sufL_ok cl _))
  | .forClause c f v i x, l => by simp only [sufE]; exact okNode rfl (suf_ok x _).end_ rfl id (.cons (suf_ok v _) (.cons (suf_ok x _) .nil))
  | .ifClause c i x, l => by simp only [sufE]; exact okNode rfl (suf_ok x _).end_ rfl id (.cons (suf_ok x _) .nil)
  | .keyValue c k p v, l => by simp only [sufE]; exact okNode (suf_ok k _).start (suf_ok v _).end_ rfl id (.cons (suf_ok k _) (.cons (suf_ok v _) .nil))
  | .dict c s xs e f, l => by simp only [sufE]; exact okNode rfl rfl rfl id (sufL_ok xs _)
  | .list c s xs e f, l => by simp only [sufE]; exact okNode rfl rfl rfl id (sufL_ok xs _)
  | .set c s xs e f, l => by simp only [sufE]; exact okNode rfl rfl rfl id (sufL_ok xs _)
  | .unary c o op x, l => by simp only [sufE]; exact okUnary (suf_ok x _)
  | .binary c x o op lb y, l => by simp only [sufE]; exact okNode (suf_ok x _).start (suf_ok y _).end_ rfl id (.cons (suf_ok x _) (.cons (suf_ok y _) .nil))
  | .assign c x o op lb y, l => by simp only [sufE]; exact okNode (suf_ok x _).start (suf_ok y _).end_ rfl id (.cons (suf_ok x _) (.cons (suf_ok y _) .nil))
  | .paren c s x e f, l => by simp only [sufE]; exact okNode rfl rfl rfl id (.cons (suf_ok x _) .nil)
  | .slice c x s f c1 t c2 st e, l => by simp only [sufE]; exact okNode (suf_ok x _).start rfl rfl id (.cons (suf_ok x _) (((OkL.opt (suf_ok f _)).append (OkL.opt (suf_ok t _))).append (OkL.opt (suf_ok st _))))
  | .index c x s y e, l => by simp only [sufE]; exact okNode (suf_ok x _).start rfl rfl id (.cons (suf_ok x _) (.cons (suf_ok y _) .nil))
  | .lambda c s ps b, l => by simp only [sufE]; exact okNode rfl (sufL_ok b _).last rfl (fun h => ⟨h.1, (sufL_ok b _).ne h.2⟩) ((sufL_ok ps _).append (sufL_ok b _))
  | .cond c t i te el e, l => by simp only [sufE]; exact okNode (suf_ok t _).start (suf_ok e _).end_ rfl id (.cons (suf_ok t _) (.cons (suf_ok te _) (.cons (suf_ok e _) .nil)))
  | .load c lp m fs ts r fc, l => by simp only [sufE]; exact okNode rfl rfl rfl id (.cons (okString m _) .nil)
  | .returnS c p r, l => by simp only [sufE]; exact okReturn (suf_ok r _)
  | .forS c f v x b, l => by simp only [sufE]; exact okNode rfl (sufL_ok b _).stmts rfl (fun h => ⟨h.1, (sufL_ok b _).ne h.2⟩) (.cons (suf_ok v _) (.cons (suf_ok x _) (sufL_ok b _)))
  | .file c s, l => by simp only [sufE]; exact okFile (sufL_ok s _)
  | .tuple c nb s xs e a b, l => by
    simp only [sufE]
    exact okTuple (sufL_ok xs _) (by cases nb <;> first | exact .inl rfl | exact .inr rfl)
  | .defS c s n ps b cp f1 f2 t, l => by simp only [sufE]; exact okDef (sufL_ok ps _) (sufL_ok b _) (Ok.refl _)
  | .ifS c i co t ep fa, l => by
    simp only [sufE]
    exact okIf (suf_ok co _) (sufL_ok t _) (sufL_ok fa _) (by split <;> rfl)
theorem sufL_ok : ∀ (xs : List Expr) (l : List Comment), OkL text xs (sufL xs l).1
  | [], l => .nil
  | x :: xs, l => by simp only [sufL]; exact .cons (suf_ok x _) (sufL_ok xs _)
end

mutual
theorem lin_ok : ∀ (x : Expr) (l : List Comment), Ok text x (linE x l).1
  | .nil, l => Ok.refl _
  | .commentBlock c s, l => by simp only [linE]; exact okNode rfl rfl rfl id .nil
  | .ident n, l => by simp only [linE]; exact okIdent _ _
  | .typedIdent c i t, l => by simp only [linE]; exact okNode rfl (lin_ok t _).end_ rfl id (.cons (Ok.refl _) (.cons (lin_ok t _) .nil))
  | .branch c t p, l => by simp only [linE]; exact okNode rfl rfl rfl id .nil
  | .literal c t p, l => by simp only [linE]; exact okNode rfl rfl rfl id .nil
  | .string n, l => by simp only [linE]; exact okString _ _
  | .call c x p xs e a b, l => by simp only [linE]; exact okNode (lin_ok x _).start rfl rfl id (.cons (lin_ok x _) (linL_ok xs _))
  | .dot c x d n s, l => by simp only [linE]; exact okNode (lin_ok x _).start rfl rfl id (.cons (lin_ok x _) .nil)
  | .compr c cu lb b cl f e, l => by simp only [linE]; exact okNode rfl rfl rfl id (.cons (lin_ok b _) (linL_ok cl _))
  | .forClause c f v i x, l => by simp only [linE]; exact okNode rfl (lin_ok x _).end_ rfl id (.cons (lin_ok v _) (.cons (lin_ok x _) .nil))
  | .ifClause c i x, l => by simp only [linE]; exact okNode rfl (lin_ok x _).end_ rfl id (.cons (lin_ok x _) .nil)
  | .keyValue c k p v, l => by simp only [linE]; exact okNode (lin_ok k _).start (lin_ok v _).end_ rfl id (.cons (lin_ok k _) (.cons (lin_ok v _) .nil))
  | .dict c s xs e f, l => by simp only [linE]; exact okNode rfl rfl rfl id (linL_ok xs _)
  | .list c s xs e f, l => by simp only [linE]; exact okNode rfl rfl rfl id (linL_ok xs _)
  | .set c s xs e f, l => by simp only [linE]; exact okNode rfl rfl rfl id (linL_ok xs _)
  | .unary c o op x, l => by simp only [linE]; exact okUnary (lin_ok x _)
  | .binary c x o op lb y, l => by simp only [linE]; exact okNode (lin_ok x _).start (lin_ok y _).end_ rfl id (.cons (lin_ok x _) (.cons (lin_ok y _) .nil))
  | .assign c x o op lb y, l => by simp only [linE]; exact okNode (lin_ok x _).start (lin_ok y _).end_ rfl id (.cons (lin_ok x _) (.cons (lin_ok y _) .nil))
  | .paren c s x e f, l => by simp only [linE]; exact okNode rfl rfl rfl id (.cons (lin_ok x _) .nil)
  | .slice c x s f c1 t c2 st e, l => by simp only [linE]; exact okNode (lin_ok x _).start rfl rfl id (.cons (lin_ok x _) (((OkL.opt (lin_ok f _)).append (OkL.opt (lin_ok t _))).append (OkL.opt (lin_ok st _))))
  | .index c x s y e, l => by simp only [linE]; exact okNode (lin_ok x _).start rfl rfl id (.cons (lin_ok x _) (.cons (lin_ok y _) .nil))
  | .lambda c s ps b, l => by simp only [linE]; exact okNode rfl (linL_ok b _).last rfl (fun h => ⟨h.1, (linL_ok b _).ne h.2⟩) ((linL_ok ps _).append (linL_ok b _))
  | .cond c t i te el e, l => by simp only [linE]; exact okNode (lin_ok t _).start (lin_ok e _).end_ rfl id (.cons (lin_ok t _) (.cons (lin_ok te _) (.cons (lin_ok e _) .nil)))
  | .load c lp m fs ts r fc, l => by simp only [linE]; exact okNode rfl rfl rfl id (.cons (okString m _) .nil)
  | .returnS c p r, l => by simp only [linE]; exact okReturn (lin_ok r _)
  | .forS c f v x b, l => by simp only [linE]; exact okNode rfl (linL_ok b _).stmts rfl (fun h => ⟨h.1, (linL_ok b _).ne h.2⟩) (.cons (lin_ok v _) (.cons (lin_ok x _) (linL_ok b _)))
  | .file c s, l => by simp only [linE]; exact okFile (linL_ok s _)
  | .tuple c nb s xs e a b, l => by
    simp only [linE]
    exact okTuple (linL_ok xs _) (by cases nb <;> first | exact .inl rfl | exact .inr rfl)
  | .defS c s n ps b cp f1 f2 t, l => by simp only [linE]; exact okDef (linL_ok ps _) (linL_ok b _) (Ok.refl _)
  | .ifS c i co t ep fa, l => by
    simp only [linE]
    exact okIf (lin_ok co _) (linL_ok t _) (linL_ok fa _) (by split <;> rfl)
theorem linL_ok : ∀ (xs : List Expr) (l : List Comment), OkL text xs (linL xs l).1
  | [], l => .nil
  | x :: xs, l => by simp only [linL]; exact .cons (lin_ok x _) (linL_ok xs _)
end

theorem OkL.refl (l : List Expr) : OkL text l l := by
  induction l with
  | nil => exact .nil
  | cons x l ih => exact .cons (Ok.refl x) ih

theorem assign_ok (l : List Expr) (s c : List Comment) :
    (∀ {lo hi}, InOrder lo l hi → InOrder lo (assign l s c).2 hi) ∧ ((∀ x ∈ l, Nested text x) → ∀ x ∈ (assign l s c).2, Nested text x) := by
  unfold assign
  exact ⟨fun h => (linL_ok (text := text) _ _).order ((sufL_ok (text := text) l _).order h),
    fun h => (linL_ok _ _).nested ((sufL_ok l _).nested h)⟩

end Verif.Props.Spans
