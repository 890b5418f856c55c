import Verif.Props.Types
import Verif.Props.SkylarkTree
/-
C91: the warnings about operations on values of certain types, and their fixes.
-/
namespace Verif.Props.TypeWarn
open Verif Verif.Syntax Verif.Walk Verif.Bzlenv Verif.Types Verif.Props.Types Verif.Props.Bzlenv

/-! ## Specification -/

/-- the operands of a binary operation or of an assignment -/
inductive Operands : Expr → Bytes → Prop
  | binary (c x p op lb y) : Operands (.binary c x p op lb y) op
  | assign (c x p op lb y) : Operands (.assign c x p op lb y) op

/-- one of the operands has the type -/
def OneOf (k : TNode) (t : Ty) : Prop := KidTy k 0 t ∨ KidTy k 1 t

/-- `a / b` or `a /= b` with integers (as far as known) -/
def Division (k : TNode) : Prop :=
  ((∃ c x p lb y, k.expr = .binary c x p b!"/" lb y) ∨ (∃ c x p lb y, k.expr = .assign c x p b!"/=" lb y)) ∧ KidTy k 0 .int ∧ KidTy k 1 .int

/-- the node is iterated over by its parent `k`: in loops and as the argument of some functions -/
inductive Iterated (single : List Bytes) (k : TNode) : TNode → Prop
  | loop (c p v x b d) : k.expr = .forS c p v x b → k.kids[1]? = some d → Iterated single k d
  | clause (c p v q x d) : k.expr = .forClause c p v q x → k.kids[1]? = some d → Iterated single k d
  | one (c i s a e f g d) : k.expr = .call c (.ident i) s [a] e f g → i.name ∈ single → k.kids[1]? = some d → Iterated single k d
  | zip (c i s l e f g j d) : k.expr = .call c (.ident i) s l e f g → i.name = b!"zip" → 1 ≤ j → k.kids[j]? = some d → Iterated single k d

/-- the tree after the fix: some divisions of integers have become floor divisions, nothing else has changed -/
inductive Floored : TNode → Expr → Prop
  | same (k : TNode) : Floored k k.expr
  | inner (k : TNode) (es : List Expr) : es.length = k.kids.length →
      (∀ (i : Nat) (d : TNode) (e : Expr), k.kids[i]? = some d → es[i]? = some e → Floored d e) → Floored k (withSlots k.expr es)
  | floor (k : TNode) (es : List Expr) (c x p lb y) : Division k → es.length = k.kids.length →
      (∀ (i : Nat) (d : TNode) (e : Expr), k.kids[i]? = some d → es[i]? = some e → Floored d e) →
      withSlots k.expr es = .binary c x p b!"/" lb y → Floored k (.binary c x p b!"//" lb y)
  | floorAssign (k : TNode) (es : List Expr) (c x p lb y) : Division k → es.length = k.kids.length →
      (∀ (i : Nat) (d : TNode) (e : Expr), k.kids[i]? = some d → es[i]? = some e → Floored d e) →
      withSlots k.expr es = .assign c x p b!"/=" lb y → Floored k (.assign c x p b!"//=" lb y)

/-- the tree after the fix, if nothing is missed: every division of integers has become a floor division, nothing else has changed. (Nothing
happens in a load statement: it has only names.) -/
inductive AllFloored : TNode → Expr → Prop
  | load (k : TNode) (c s m f t r fc) : k.expr = .load c s m f t r fc → AllFloored k k.expr
  | inner (k : TNode) (es : List Expr) : ¬ Division k → es.length = k.kids.length →
      (∀ (i : Nat) (d : TNode) (e : Expr), k.kids[i]? = some d → es[i]? = some e → AllFloored d e) → AllFloored k (withSlots k.expr es)
  | floor (k : TNode) (es : List Expr) (c x p lb y) : Division k → es.length = k.kids.length →
      (∀ (i : Nat) (d : TNode) (e : Expr), k.kids[i]? = some d → es[i]? = some e → AllFloored d e) →
      withSlots k.expr es = .binary c x p b!"/" lb y → AllFloored k (.binary c x p b!"//" lb y)
  | floorAssign (k : TNode) (es : List Expr) (c x p lb y) : Division k → es.length = k.kids.length →
      (∀ (i : Nat) (d : TNode) (e : Expr), k.kids[i]? = some d → es[i]? = some e → AllFloored d e) →
      withSlots k.expr es = .assign c x p b!"/=" lb y → AllFloored k (.assign c x p b!"//=" lb y)

/-- an entry of a dictionary or a clause of a comprehension: these are no divisions in a tree from the parser -/
inductive Entry (k : TNode) : TNode → Prop
  | dict (c s l e f d) : k.expr = .dict c s l e f → d ∈ k.kids → Entry k d
  | compr (c u s b cl f e d) : k.expr = .compr c u s b cl f e → d ∈ k.kids.drop 1 → Entry k d

/-! ## Proofs -/

theorem kid_or {k : TNode} {t : Ty} (ht : t ≠ .unknown) : (decide (kidTy 0 k.kids = t) || decide (kidTy 1 k.kids = t)) = true ↔ OneOf k t := by
  simp only [Bool.or_eq_true, decide_eq_true_eq, kidTy_iff ht, OneOf]

/-- **C91 (dictionaries).** `a + b` and `a += b` are reported exactly if one side is known to be a dictionary. -/
theorem C91_dict_concat (k : TNode) : dictConcat k = true ↔ OneOf k .dict ∧
    ((∃ c x p lb y, k.expr = .binary c x p b!"+" lb y) ∨ (∃ c x p lb y, k.expr = .assign c x p b!"+=" lb y)) := by
  unfold dictConcat
  constructor
  · intro h
    split at h
    · rename_i c x p op lb y he
      rw [Bool.and_eq_true, kid_or (by simp)] at h
      simp only [decide_eq_true_eq] at h
      obtain ⟨rfl, h⟩ := h
      exact ⟨h, .inl ⟨_, _, _, _, _, he⟩⟩
    · rename_i c x p op lb y he
      rw [Bool.and_eq_true, kid_or (by simp)] at h
      simp only [decide_eq_true_eq] at h
      obtain ⟨rfl, h⟩ := h
      exact ⟨h, .inr ⟨_, _, _, _, _, he⟩⟩
    · cases h
  · rintro ⟨h, ⟨c, x, p, lb, y, he⟩ | ⟨c, x, p, lb, y, he⟩⟩
    · rw [he]; simp only; rw [Bool.and_eq_true, kid_or (by simp)]; exact ⟨by simp, h⟩
    · rw [he]; simp only; rw [Bool.and_eq_true, kid_or (by simp)]; exact ⟨by simp, h⟩

/-- **C91 (methods of dictionaries).** In calls of `pop`, `get` and `setdefault` of a dictionary exactly the arguments `default = ...` are reported. -/
theorem C91_named_default (k : TNode) (a : Expr) : a ∈ namedDefault k ↔
    (∃ c c' x p q name s l e f g d, k.expr = .call c (.dot c' x p q name) s l e f g ∧ k.kids[0]? = some d ∧ KidTy d 0 .dict ∧
      (name = b!"pop" ∨ name = b!"get" ∨ name = b!"setdefault") ∧ a ∈ l) ∧ ∃ c i p op lb v, a = .assign c (.ident i) p op lb v ∧ i.name = b!"default" := by
  have hd : isDefault a = true ↔ ∃ c i p op lb v, a = .assign c (.ident i) p op lb v ∧ i.name = b!"default" := by
    unfold isDefault
    constructor
    · intro h
      split at h
      · exact ⟨_, _, _, _, _, _, rfl, by simpa using h⟩
      · cases h
    · rintro ⟨c, i, p, op, lb, v, rfl, h⟩
      simpa using h
  unfold namedDefault
  constructor
  · intro h
    split at h
    · rename_i c c' x p q name s l e f g he
      split at h
      · rename_i d ks hk
        split at h
        · rename_i hh
          obtain ⟨h1, h2⟩ := List.mem_filter.1 h
          refine ⟨⟨_, _, _, _, _, _, _, _, _, _, _, d, he, by rw [hk]; rfl, (kidTy_iff (by simp)).1 hh.1, by simpa using hh.2, h1⟩, hd.1 h2⟩
        · cases h
      · cases h
    · cases h
  · rintro ⟨⟨c, c', x, p, q, name, s, l, e, f, g, d, he, hk, h1, h2, h3⟩, h4⟩
    rw [he]
    simp only
    cases hks : k.kids with
    | nil => rw [hks] at hk; cases hk
    | cons d' ks =>
      rw [hks] at hk
      cases hk
      simp only
      rw [if_pos ⟨(kidTy_iff (by simp)).2 h1, by simpa using h2⟩]
      exact List.mem_filter.2 ⟨h3, hd.2 h4⟩

theorem second {ks : List TNode} {t : Ty} {d : TNode} : d ∈ ((ks.drop 1).take 1).filter (fun x => decide (x.ty = t)) ↔ ks[1]? = some d ∧ d.ty = t := by
  rw [List.mem_filter, decide_eq_true_eq]
  rcases ks with _ | ⟨a, _ | ⟨b, ks⟩⟩ <;> simp [eq_comm]

theorem kidsOf_iff {ks : List TNode} {t : Ty} {d : TNode} : d ∈ kidsOf t 1 ks ↔ (∃ j, 1 ≤ j ∧ ks[j]? = some d) ∧ d.ty = t := by
  unfold kidsOf
  rw [List.mem_filter, decide_eq_true_eq, List.mem_iff_getElem?]
  constructor
  · rintro ⟨⟨i, h⟩, h2⟩
    exact ⟨⟨1 + i, by omega, by rw [← h, List.getElem?_drop]⟩, h2⟩
  · rintro ⟨⟨j, h1, h⟩, h2⟩
    refine ⟨⟨j - 1, ?_⟩, h2⟩
    rw [List.getElem?_drop, ← h]
    congr 1; omega

/-- the arguments of a call of `i` -/
theorem calls_iff {single : List Bytes} {k : TNode} (hl : k.kids.map TNode.expr = slots k.expr) {c : Comments} {i : IdentN} {s : Pos} {l : List Expr} {e : EndN}
    {f g : Bool} (he : k.expr = .call c (.ident i) s l e f g) (hz : b!"zip" ∉ single) (t : Ty) (d : TNode) :
    d ∈ (if i.name ∈ single then if l.length = 1 then kidsOf t 1 k.kids else [] else if i.name = b!"zip" then kidsOf t 1 k.kids else []) ↔
      Iterated single k d ∧ d.ty = t := by
  have hlen : k.kids.length = l.length + 1 := by
    have := congrArg List.length hl
    rw [he] at this
    simpa [slots] using this
  constructor
  · intro h
    split at h
    · rename_i h1
      split at h
      · rename_i h2
        obtain ⟨⟨j, h3, h4⟩, h5⟩ := kidsOf_iff.1 h
        have hj : j = 1 := by
          have := (List.getElem?_eq_some_iff.1 h4).1
          omega
        subst hj
        obtain ⟨a, rfl⟩ := List.length_eq_one_iff.1 h2
        exact ⟨.one _ _ _ _ _ _ _ _ he h1 h4, h5⟩
      · cases h
    · split at h
      · rename_i h1
        obtain ⟨⟨j, h3, h4⟩, h5⟩ := kidsOf_iff.1 h
        exact ⟨.zip _ _ _ _ _ _ _ j _ he h1 h3 h4, h5⟩
      · cases h
  · rintro ⟨h, ht⟩
    cases h with
    | loop _ _ _ _ _ _ he' _ => rw [he] at he'; cases he'
    | clause _ _ _ _ _ _ he' _ => rw [he] at he'; cases he'
    | one c' i' s' a e' f' g' _ he' h1 h2 =>
      rw [he] at he'
      cases he'
      rw [if_pos h1, if_pos (by rfl)]
      exact kidsOf_iff.2 ⟨⟨1, Nat.le_refl _, h2⟩, ht⟩
    | zip c' i' s' l' e' f' g' j _ he' h1 h2 h3 =>
      rw [he] at he'
      cases he'
      rw [if_neg (by rw [h1]; exact hz), if_pos h1]
      exact kidsOf_iff.2 ⟨⟨j, h2, h3⟩, ht⟩

/-- **C91 (strings).** Exactly the expressions that are iterated over and known to be strings are reported. -/
theorem C91_string_iteration (k d : TNode) (hl : k.kids.map TNode.expr = slots k.expr) :
    d ∈ stringIteration k ↔ Iterated [b!"all", b!"any", b!"reversed", b!"max", b!"min"] k d ∧ d.ty = .string := by
  unfold stringIteration
  split
  · rename_i he
    rw [second]
    constructor
    · rintro ⟨h1, h2⟩; exact ⟨.loop _ _ _ _ _ _ he h1, h2⟩
    · rintro ⟨h, h2⟩
      cases h with
      | loop _ _ _ _ _ _ he' h => exact ⟨h, h2⟩
      | clause _ _ _ _ _ _ he' h => exact ⟨h, h2⟩
      | one _ _ _ _ _ _ _ _ he' => rw [he] at he'; cases he'
      | zip _ _ _ _ _ _ _ _ _ he' => rw [he] at he'; cases he'
  · rename_i he
    rw [second]
    constructor
    · rintro ⟨h1, h2⟩; exact ⟨.clause _ _ _ _ _ _ he h1, h2⟩
    · rintro ⟨h, h2⟩
      cases h with
      | loop _ _ _ _ _ _ he' h => exact ⟨h, h2⟩
      | clause _ _ _ _ _ _ he' h => exact ⟨h, h2⟩
      | one _ _ _ _ _ _ _ _ he' => rw [he] at he'; cases he'
      | zip _ _ _ _ _ _ _ _ _ he' => rw [he] at he'; cases he'
  · rename_i he
    exact calls_iff hl he (by decide) _ _
  · rename_i h1 h2 h3
    simp only [List.not_mem_nil, false_iff]
    rintro ⟨h, _⟩
    cases h with
    | loop _ _ _ _ _ _ he' h => exact h1 _ _ _ _ _ he'
    | clause _ _ _ _ _ _ he' h => exact h2 _ _ _ _ _ he'
    | one _ _ _ _ _ _ _ _ he' => exact h3 _ _ _ _ _ _ _ he'
    | zip _ _ _ _ _ _ _ _ _ he' => exact h3 _ _ _ _ _ _ _ he'

/-- **C91 (depsets).** Exactly the expressions that are iterated over (also the right operand of `in`) and known to be depsets are reported. -/
theorem C91_depset_iteration (k d : TNode) (hl : k.kids.map TNode.expr = slots k.expr) :
    d ∈ depsetIteration k ↔ (Iterated [b!"all", b!"any", b!"depset", b!"len", b!"sorted", b!"max", b!"min", b!"list", b!"tuple"] k d ∨
      ((∃ c x p op lb y, k.expr = .binary c x p op lb y ∧ (op = b!"in" ∨ op = b!"not in")) ∧ k.kids[1]? = some d)) ∧ d.ty = .depset := by
  unfold depsetIteration
  split
  · rename_i he
    rw [second]
    constructor
    · rintro ⟨h1, h2⟩; exact ⟨.inl (.loop _ _ _ _ _ _ he h1), h2⟩
    · rintro ⟨h | ⟨⟨_, _, _, _, _, _, he', _⟩, _⟩, h2⟩
      · cases h with
        | loop _ _ _ _ _ _ he' h => exact ⟨h, h2⟩
        | clause _ _ _ _ _ _ he' h => exact ⟨h, h2⟩
        | one _ _ _ _ _ _ _ _ he' => rw [he] at he'; cases he'
        | zip _ _ _ _ _ _ _ _ _ he' => rw [he] at he'; cases he'
      · rw [he] at he'; cases he'
  · rename_i he
    rw [second]
    constructor
    · rintro ⟨h1, h2⟩; exact ⟨.inl (.clause _ _ _ _ _ _ he h1), h2⟩
    · rintro ⟨h | ⟨⟨_, _, _, _, _, _, he', _⟩, _⟩, h2⟩
      · cases h with
        | loop _ _ _ _ _ _ he' h => exact ⟨h, h2⟩
        | clause _ _ _ _ _ _ he' h => exact ⟨h, h2⟩
        | one _ _ _ _ _ _ _ _ he' => rw [he] at he'; cases he'
        | zip _ _ _ _ _ _ _ _ _ he' => rw [he] at he'; cases he'
      · rw [he] at he'; cases he'
  · rename_i c x p op lb y he
    constructor
    · intro h
      split at h
      · rename_i ho
        obtain ⟨h1, h2⟩ := second.1 h
        exact ⟨.inr ⟨⟨_, _, _, _, _, _, he, ho⟩, h1⟩, h2⟩
      · cases h
    · rintro ⟨h | ⟨⟨_, _, _, _, _, _, he', ho⟩, h1⟩, h2⟩
      · cases h with
        | loop _ _ _ _ _ _ he' h => rw [he] at he'; cases he'
        | clause _ _ _ _ _ _ he' h => rw [he] at he'; cases he'
        | one _ _ _ _ _ _ _ _ he' => rw [he] at he'; cases he'
        | zip _ _ _ _ _ _ _ _ _ he' => rw [he] at he'; cases he'
      · rw [he] at he'
        cases he'
        rw [if_pos ho]
        exact second.2 ⟨h1, h2⟩
  · rename_i he
    rw [calls_iff hl he (by decide)]
    constructor
    · rintro ⟨h, h2⟩; exact ⟨.inl h, h2⟩
    · rintro ⟨h | ⟨⟨_, _, _, _, _, _, he', _⟩, _⟩, h2⟩
      · exact ⟨h, h2⟩
      · rw [he] at he'; cases he'
  · rename_i h1 h2 h3 h4
    simp only [List.not_mem_nil, false_iff]
    rintro ⟨h | ⟨⟨_, _, _, _, _, _, he', _⟩, _⟩, _⟩
    · cases h with
      | loop _ _ _ _ _ _ he' h => exact h1 _ _ _ _ _ he'
      | clause _ _ _ _ _ _ he' h => exact h2 _ _ _ _ _ he'
      | one _ _ _ _ _ _ _ _ he' => exact h4 _ _ _ _ _ _ _ he'
      | zip _ _ _ _ _ _ _ _ _ he' => exact h4 _ _ _ _ _ _ _ he'
    · exact h3 _ _ _ _ _ _ he'

/-- **C91 (unions of depsets).** `a + b`, `a | b`, `a += b`, `a |= b` and `a.union(b, ...)` are reported exactly if `a` or `b` is known to be a depset. -/
theorem C91_depset_union (k : TNode) : depsetUnion k = true ↔
    (OneOf k .depset ∧ ((∃ c x p op lb y, k.expr = .binary c x p op lb y ∧ (op = b!"+" ∨ op = b!"|")) ∨
      (∃ c x p op lb y, k.expr = .assign c x p op lb y ∧ (op = b!"+=" ∨ op = b!"|=")))) ∨
    (∃ c c' x p q s a l e f g d, k.expr = .call c (.dot c' x p q b!"union") s (a :: l) e f g ∧ k.kids[0]? = some d ∧ (KidTy d 0 .depset ∨ KidTy k 1 .depset)) := by
  unfold depsetUnion
  split
  · rename_i c x p op lb y he
    rw [Bool.and_eq_true, kid_or (by simp), Bool.or_eq_true, decide_eq_true_eq, decide_eq_true_eq]
    constructor
    · rintro ⟨h1, h2⟩; exact .inl ⟨h1, .inl ⟨_, _, _, _, _, _, he, h2⟩⟩
    · rintro (⟨h1, ⟨_, _, _, _, _, _, he', h2⟩ | ⟨_, _, _, _, _, _, he', h2⟩⟩ | ⟨_, _, _, _, _, _, _, _, _, _, _, _, he', _⟩)
      · rw [he] at he'; cases he'; exact ⟨h1, h2⟩
      · rw [he] at he'; cases he'
      · rw [he] at he'; cases he'
  · rename_i c x p op lb y he
    rw [Bool.and_eq_true, kid_or (by simp), Bool.or_eq_true, decide_eq_true_eq, decide_eq_true_eq]
    constructor
    · rintro ⟨h1, h2⟩; exact .inl ⟨h1, .inr ⟨_, _, _, _, _, _, he, h2⟩⟩
    · rintro (⟨h1, ⟨_, _, _, _, _, _, he', h2⟩ | ⟨_, _, _, _, _, _, he', h2⟩⟩ | ⟨_, _, _, _, _, _, _, _, _, _, _, _, he', _⟩)
      · rw [he] at he'; cases he'
      · rw [he] at he'; cases he'; exact ⟨h1, h2⟩
      · rw [he] at he'; cases he'
  · rename_i c c' x p q name s l e f g he
    constructor
    · intro h
      simp only [Bool.and_eq_true, decide_eq_true_eq] at h
      obtain ⟨⟨h1, rfl⟩, h2⟩ := h
      cases l with
      | nil => simp at h1
      | cons a l =>
        split at h2
        · rename_i d ks hks
          rw [Bool.or_eq_true, decide_eq_true_eq, decide_eq_true_eq, kidTy_iff (by simp), kidTy_iff (by simp)] at h2
          exact .inr ⟨_, _, _, _, _, _, _, _, _, _, _, d, he, by rw [hks]; rfl, h2⟩
        · cases h2
    · rintro (⟨h1, ⟨_, _, _, _, _, _, he', h2⟩ | ⟨_, _, _, _, _, _, he', h2⟩⟩ | ⟨_, _, _, _, _, _, _, _, _, _, _, d, he', hd, h2⟩)
      · rw [he] at he'; cases he'
      · rw [he] at he'; cases he'
      · rw [he] at he'
        cases he'
        cases hks : k.kids with
        | nil => rw [hks] at hd; cases hd
        | cons d' ks =>
          rw [hks] at hd
          cases hd
          rw [← kidTy_iff (by simp), ← kidTy_iff (k := k) (by simp), hks] at h2
          simpa using h2
  · rename_i h1 h2 h3
    simp only [Bool.false_eq_true, false_iff]
    rintro (⟨_, ⟨_, _, _, _, _, _, he', _⟩ | ⟨_, _, _, _, _, _, he', _⟩⟩ | ⟨_, _, _, _, _, _, _, _, _, _, _, d, he', _⟩)
    · exact h1 _ _ _ _ _ _ he'
    · exact h2 _ _ _ _ _ _ he'
    · exact h3 _ _ _ _ _ _ _ _ _ _ _ he'

/-- **C91 (division).** A division is reported exactly if both operands are known to be integers. -/
theorem C91_division (k : TNode) : isIntDiv k = true ↔ Division k := by
  unfold isIntDiv Division
  constructor
  · intro h
    split at h
    · rename_i c x p op lb y he
      simp only [Bool.and_eq_true, decide_eq_true_eq] at h
      obtain ⟨⟨rfl, h1⟩, h2⟩ := h
      exact ⟨.inl ⟨_, _, _, _, _, he⟩, (kidTy_iff (by simp)).1 h1, (kidTy_iff (by simp)).1 h2⟩
    · rename_i c x p op lb y he
      simp only [Bool.and_eq_true, decide_eq_true_eq] at h
      obtain ⟨⟨rfl, h1⟩, h2⟩ := h
      exact ⟨.inr ⟨_, _, _, _, _, he⟩, (kidTy_iff (by simp)).1 h1, (kidTy_iff (by simp)).1 h2⟩
    · cases h
  · rintro ⟨⟨c, x, p, lb, y, he⟩ | ⟨c, x, p, lb, y, he⟩, h1, h2⟩
    · rw [he]; simp [(kidTy_iff (k := k) (t := .int) (by simp)).2 h1, (kidTy_iff (k := k) (t := .int) (by simp)).2 h2]
    · rw [he]; simp [(kidTy_iff (k := k) (t := .int) (by simp)).2 h1, (kidTy_iff (k := k) (t := .int) (by simp)).2 h2]

/-- what happens to the child at index `i` -/
theorem fixDivL_get (rep : Bool) : ∀ (kids : List TNode) (ps : List Skylark.Place), ps.length = kids.length →
    (fixDivL rep ps kids).length = kids.length ∧ ∀ (i : Nat) (d : TNode) (e : Expr), kids[i]? = some d → (fixDivL rep ps kids)[i]? = some e →
      ∃ pl, ps[i]? = some pl ∧ e = fixDiv (match pl with
      | .field => !rep
      | .elem => true
      | .loc => false) d
  | [], ps, h => by
    cases ps with
    | nil => exact ⟨rfl, fun i d e hd => by simp at hd⟩
    | cons => simp at h
  | k :: l, [], h => by simp at h
  | k :: l, p :: ps, h => by
    obtain ⟨h1, h2⟩ := fixDivL_get rep l ps (by simpa using h)
    have hq : fixDivL rep (p :: ps) (k :: l) = fixDiv (match p with
      | .field => !rep
      | .elem => true
      | .loc => false) k :: fixDivL rep ps l := by cases p <;> rfl
    rw [hq]
    refine ⟨by simp [h1], ?_⟩
    intro i d e hd he
    cases i with
    | zero =>
      simp only [List.getElem?_cons_zero, Option.some.injEq] at hd he
      subst hd
      exact ⟨p, rfl, by cases p <;> exact he.symm⟩
    | succ i =>
      simp only [List.getElem?_cons_succ] at hd he ⊢
      exact h2 i d e hd he

theorem nodesL_mem {l : List TNode} {i : Nat} {d x : TNode} (h : l[i]? = some d) (hx : x ∈ d.nodes) : x ∈ nodesL l := by
  induction l generalizing i with
  | nil => simp at h
  | cons a l ih =>
    rw [nodesL]
    cases i with
    | zero =>
      simp only [List.getElem?_cons_zero, Option.some.injEq] at h
      subst h
      exact List.mem_append_left _ hx
    | succ i => exact List.mem_append_right _ (ih (by simpa using h))

theorem kid_size : ∀ (l : List TNode) (i : Nat) (d : TNode), l[i]? = some d → sizeOf d < sizeOf l
  | [], i, d, h => by simp at h
  | a :: l, 0, d, h => by
    simp only [List.getElem?_cons_zero, Option.some.injEq] at h
    subst h
    simp; omega
  | a :: l, i + 1, d, h => by
    have := kid_size l i d (by simpa using h)
    simp; omega

theorem length_two {l : List Expr} (h : l.length = 2) : ∃ a b, l = [a, b] := by
  match l, h with
  | [a, b], _ => exact ⟨a, b, rfl⟩

/-- the node after the fix -/
theorem fixDiv_cases (eff : Bool) (e : Expr) (b : List Block) (s : Bool) (t : Ty) (kids : List TNode) (hk : kids.map TNode.expr = slots e) :
    (∃ c p m f t' r fc, e = .load c p m f t' r fc ∧ fixDiv eff (.node e b s t kids) = e) ∨
    ∃ es : List Expr, es.length = kids.length ∧ (∀ (i : Nat) (d : TNode) (x : Expr), kids[i]? = some d → es[i]? = some x →
        ∃ pl, (Skylark.places e)[i]? = some pl ∧ x = fixDiv (match pl with
        | .field => !(eff && isIntDiv (.node e b s t kids))
        | .elem => true
        | .loc => false) d) ∧
      fixDiv eff (.node e b s t kids) = if eff && isIntDiv (.node e b s t kids) then floorOp (withSlots e es) else withSlots e es := by
  have hl : (Skylark.places e).length = kids.length := by
    rw [Skylark.places_length, ← hk, List.length_map]
  have h := fixDivL_get (eff && isIntDiv (.node e b s t kids)) kids (Skylark.places e) hl
  cases e with
  | load c p m f t r fc => exact .inl ⟨c, p, m, f, t, r, fc, rfl, by rw [fixDiv]⟩
  | nil =>
    right
    have : kids = [] := by simpa [slots] using hk
    subst this
    exact ⟨[], rfl, by simp, by rw [fixDiv]; simp [isIntDiv, TNode.expr, withSlots]⟩
  | _ => exact .inr ⟨_, h.1, h.2, rfl⟩

theorem floored : ∀ (n : Nat) (k : TNode), sizeOf k ≤ n → ∀ eff, (∀ x ∈ k.nodes, x.kids.map TNode.expr = slots x.expr) → Floored k (fixDiv eff k)
  | 0, .node e b s t kids, hn, _, _ => by simp at hn
  | n + 1, .node e b s t kids, hn, eff, h => by
    rcases fixDiv_cases eff e b s t kids (h _ (mem_self _)) with ⟨c, p, m, f, t', r, fc, he, h1⟩ | ⟨es, h1, h2, h3⟩
    · rw [h1]; exact .same (.node e b s t kids)
    · have hkids : ∀ (i : Nat) (d : TNode) (x : Expr), kids[i]? = some d → es[i]? = some x → Floored d x := by
        intro i d x hd hx
        obtain ⟨pl, _, rfl⟩ := h2 i d x hd hx
        refine floored n d ?_ _ fun y hy => h y ?_
        · have := kid_size kids i d hd
          simp at hn; omega
        · rw [TNode.nodes]; exact List.mem_cons_of_mem _ (nodesL_mem hd hy)
      rw [h3]
      split
      next hr =>
        have hdiv := (C91_division _).1 (Bool.and_eq_true_iff.1 hr).2
        rcases hdiv.1 with ⟨c, x, p, lb, y, he⟩ | ⟨c, x, p, lb, y, he⟩
        · simp only [TNode.expr] at he
          subst he
          have h0 := h _ (mem_self _)
          have hlen : es.length = 2 := by rw [h1, ← List.length_map (f := TNode.expr)]; exact congrArg List.length h0
          obtain ⟨u, v, rfl⟩ := length_two hlen
          exact .floor (.node _ b s t kids) [u, v] c u p lb v hdiv h1 hkids rfl
        · simp only [TNode.expr] at he
          subst he
          have h0 := h _ (mem_self _)
          have hlen : es.length = 2 := by rw [h1, ← List.length_map (f := TNode.expr)]; exact congrArg List.length h0
          obtain ⟨u, v, rfl⟩ := length_two hlen
          exact .floorAssign (.node _ b s t kids) [u, v] c u p lb v hdiv h1 hkids rfl
      next => exact .inner (.node e b s t kids) es h1 hkids

theorem places_field {e : Expr} {i : Nat} (h : (Skylark.places e)[i]? = some .loc) :
    (∃ c s l x f, e = .dict c s l x f) ∨ (∃ c u s b cl f x, e = .compr c u s b cl f x ∧ 1 ≤ i) ∨ ∃ c s m f t r fc, e = .load c s m f t r fc := by
  cases e with
  | dict => exact .inl ⟨_, _, _, _, _, rfl⟩
  | compr =>
    right; left
    refine ⟨_, _, _, _, _, _, _, rfl, ?_⟩
    cases i with
    | zero => simp [Skylark.places] at h
    | succ => omega
  | load => exact .inr (.inr ⟨_, _, _, _, _, _, _, rfl⟩)
  | _ =>
    exfalso
    have := List.mem_of_getElem? h
    simp [Skylark.places] at this

theorem allFloored : ∀ (n : Nat) (k : TNode), sizeOf k ≤ n → ∀ eff, (∀ x ∈ k.nodes, x.kids.map TNode.expr = slots x.expr) →
    (Division k → eff = true) → (∀ x ∈ k.nodes, Division x → ∀ d ∈ x.kids, ¬ Division d) → (∀ x ∈ k.nodes, ∀ d, Entry x d → ¬ Division d) →
    AllFloored k (fixDiv eff k)
  | 0, .node e b s t kids, hn, _, _, _, _, _ => by simp at hn
  | n + 1, .node e b s t kids, hn, eff, h, hroot, hnest, hent => by
    rcases fixDiv_cases eff e b s t kids (h _ (mem_self _)) with ⟨c, p, m, f, t', r, fc, he, h1⟩ | ⟨es, h1, h2, h3⟩
    · rw [h1]; exact .load (.node e b s t kids) _ _ _ _ _ _ _ he
    · by_cases hload : ∃ c p m f t r fc, e = .load c p m f t r fc
      · obtain ⟨c, p, m, f, t', r, fc, rfl⟩ := hload
        rw [fixDiv]
        exact .load (.node _ b s t kids) _ _ _ _ _ _ _ rfl
      have hkids : ∀ (i : Nat) (d : TNode) (x : Expr), kids[i]? = some d → es[i]? = some x → AllFloored d x := by
        intro i d x hd hx
        obtain ⟨pl, hpl, rfl⟩ := h2 i d x hd hx
        have hsub : ∀ y ∈ d.nodes, y ∈ (TNode.node e b s t kids).nodes := fun y hy => by
          rw [TNode.nodes]; exact List.mem_cons_of_mem _ (nodesL_mem hd hy)
        refine allFloored n d ?_ _ (fun y hy => h y (hsub y hy)) ?_ (fun y hy => hnest y (hsub y hy)) fun y hy => hent y (hsub y hy)
        · have := kid_size kids i d hd
          simp at hn; omega
        · intro hdiv
          cases pl with
          | elem => rfl
          | loc =>
            exfalso
            rcases places_field hpl with ⟨c, s', l, x, f, rfl⟩ | ⟨c, u, s', b', cl, f, x, rfl, hi⟩ | hl
            · exact hent _ (mem_self _) d (.dict _ _ _ _ _ _ rfl (List.mem_of_getElem? hd)) hdiv
            · refine hent _ (mem_self _) d (.compr _ _ _ _ _ _ _ _ rfl ?_) hdiv
              apply List.mem_of_getElem? (i := i - 1)
              rw [List.getElem?_drop, Nat.add_sub_cancel' hi]
              exact hd
            · exact hload hl
          | field =>
            show (!(eff && isIntDiv (.node e b s t kids))) = true
            cases hq : isIntDiv (.node e b s t kids) with
            | false => simp
            | true => exact absurd hdiv (hnest _ (mem_self _) ((C91_division _).1 hq) d (List.mem_of_getElem? hd))
      rw [h3]
      split
      next hr =>
        have hdiv := (C91_division _).1 (Bool.and_eq_true_iff.1 hr).2
        rcases hdiv.1 with ⟨c, x, p, lb, y, he⟩ | ⟨c, x, p, lb, y, he⟩
        · simp only [TNode.expr] at he
          subst he
          have h0 := h _ (mem_self _)
          have hlen : es.length = 2 := by rw [h1, ← List.length_map (f := TNode.expr)]; exact congrArg List.length h0
          obtain ⟨u, v, rfl⟩ := length_two hlen
          exact .floor (.node _ b s t kids) [u, v] c u p lb v hdiv h1 hkids rfl
        · simp only [TNode.expr] at he
          subst he
          have h0 := h _ (mem_self _)
          have hlen : es.length = 2 := by rw [h1, ← List.length_map (f := TNode.expr)]; exact congrArg List.length h0
          obtain ⟨u, v, rfl⟩ := length_two hlen
          exact .floorAssign (.node _ b s t kids) [u, v] c u p lb v hdiv h1 hkids rfl
      next hr =>
        refine .inner (.node e b s t kids) es (fun hd => hr ?_) h1 hkids
        rw [hroot hd, (C91_division _).2 hd]; rfl

/-- **C91 (the fix of divisions is faithful).** The fix gives one file, which is the old one except that some of the divisions that are reported (those
with operands that are known to be integers) have become floor divisions. -/
theorem C91_fix_faithful (c : Comments) (l : List Expr) (hf : ∀ c' l', ¬ Inside (.file c l) (.file c' l')) :
    ∃ k w, detect (.file c l) = [k] ∧ k.expr = .file c l ∧ fixDivisions (.file c l) = [w] ∧ Floored k w := by
  obtain ⟨b, kids, h1, _, _, h2⟩ := detect_file c l hf
  refine ⟨_, _, h1, rfl, by rw [fixDivisions, h1]; rfl, floored _ _ (Nat.le_refl _) false fun x hx => (h2 x ?_).2.1⟩
  rw [nodes, h1, nodesL, nodesL, List.append_nil]
  exact hx

/-- **C91 (the fix of divisions is complete).** If no reported division is an operand of a reported division, all of them are fixed. -/
theorem C91_fix_complete (c : Comments) (l : List Expr) (hf : ∀ c' l', ¬ Inside (.file c l) (.file c' l'))
    (hnest : ∀ x ∈ nodes (.file c l), Division x → ∀ d ∈ x.kids, ¬ Division d) (hent : ∀ x ∈ nodes (.file c l), ∀ d, Entry x d → ¬ Division d) :
    ∃ k w, detect (.file c l) = [k] ∧ k.expr = .file c l ∧ fixDivisions (.file c l) = [w] ∧ AllFloored k w := by
  obtain ⟨b, kids, h1, _, _, h2⟩ := detect_file c l hf
  have hn : ∀ x, x ∈ (TNode.node (.file c l) b true .unknown kids).nodes → x ∈ nodes (.file c l) := fun x hx => by
    rw [nodes, h1, nodesL, nodesL, List.append_nil]
    exact hx
  refine ⟨_, _, h1, rfl, by rw [fixDivisions, h1]; rfl, allFloored _ _ (Nat.le_refl _) false (fun x hx => (h2 x (hn x hx)).2.1) ?_
    (fun x hx => hnest x (hn x hx)) fun x hx => hent x (hn x hx)⟩
  rintro ⟨⟨_, _, _, _, _, h⟩ | ⟨_, _, _, _, _, h⟩, _⟩ <;> cases h

/-- **C91 (witness).** In a chain of divisions every second one is missed: `1 / 2 / 3 / 4` becomes `1 // 2 / 3 // 4`, although all three are reported. -/
theorem C91_chain_witness :
    let f : Expr := .file {} [bin (bin (bin (num b!"1") b!"/" (num b!"2")) b!"/" (num b!"3")) b!"/" (num b!"4")]
    fixDivisions f = [.file {} [bin (bin (bin (num b!"1") b!"//" (num b!"2")) b!"/" (num b!"3")) b!"//" (num b!"4")]] ∧
    ((nodes f).filter isIntDiv).length = 3 := by
  exact ⟨rfl, by decide +kernel⟩

/-- **C91 (append).** Exactly `x += [e]` is replaced, by `x.append(e)` with the comments of the statement. -/
theorem C91_append (endPos : Pos) (a w : Expr) :
    appendFix endPos a = some w ↔ ∃ c lhs p lb c' s x e f, a = .assign c lhs p b!"+=" lb (.list c' s [x] e f) ∧
      w = .call c (.dot {} lhs {} {} b!"append") {} [x] { pos := endPos } false false := by
  unfold appendFix
  constructor
  · intro h
    split at h
    · split at h
      · rename_i c lhs p op lb c' s x e f ho
        subst ho
        cases h
        exact ⟨_, _, _, _, _, _, _, _, _, rfl, rfl⟩
      · cases h
    · cases h
  · rintro ⟨c, lhs, p, lb, c', s, x, e, f, rfl, rfl⟩
    simp

/-- **C91 (append, witness).** Comments of the list and before its closing bracket are dropped: the result does not depend on them. -/
theorem C91_append_comments_witness (endPos : Pos) (c c1 c2 : Comments) (lhs x : Expr) (p s : Pos) (lb f : Bool) (e1 e2 : EndN) :
    appendFix endPos (.assign c lhs p b!"+=" lb (.list c1 s [x] e1 f)) = appendFix endPos (.assign c lhs p b!"+=" lb (.list c2 s [x] e2 f)) ∧
    appendFix endPos (.assign c lhs p b!"+=" lb (.list c1 s [x] e1 f)) ≠ none := ⟨rfl, by simp [appendFix]⟩

/-- **C91 (division, soundness).** If the assumptions of `DetectTypes` hold (see C90), the operands of every reported division are integers. -/
theorem C91_division_sound (c : Comments) (l : List Expr) (hf : ∀ c' l', ¬ Inside (.file c l) (.file c' l')) (actual : List Block → Expr → Ty) (var : Nat → Ty)
    (h : ∀ k ∈ nodes (.file c l), k.seen = true → Fact actual var k.scope k.expr) :
    ∀ k ∈ nodes (.file c l), isIntDiv k = true → ∃ x y, slots k.expr = [x, y] ∧ actual k.scope x = .int ∧ actual k.scope y = .int := by
  intro k hk hd
  obtain ⟨b, kids, h1, _, _, hloc⟩ := detect_file c l hf
  obtain ⟨hdiv, ⟨k0, h0, t0⟩, ⟨k1, h1', t1⟩⟩ := (C91_division k).1 hd
  have hl := hloc k hk
  have hs : ¬ Scoped k.expr ∧ ∃ x y, slots k.expr = [x, y] := by
    rcases hdiv with ⟨_, x, _, _, y, he⟩ | ⟨_, x, _, _, y, he⟩ <;> (rw [he]; exact ⟨(by simp [Scoped]), x, y, rfl⟩)
  obtain ⟨hs, x, y, hxy⟩ := hs
  have hmem : ∀ d ∈ k.kids, d ∈ nodes (.file c l) := fun d hd => kids_nodesL _ k d hk (mem_nodesL hd)
  have hkids := hl.2.1
  rw [hxy] at hkids
  have hx : k0.expr = x := by
    have := congrArg (fun l => l[0]?) hkids
    simpa [h0] using this
  have hy : k1.expr = y := by
    have := congrArg (fun l => l[1]?) hkids
    simpa [h1'] using this
  have s0 := C90_sound c l hf actual var h k0 (hmem _ (List.mem_of_getElem? h0)) (by rw [t0]; simp)
  have s1 := C90_sound c l hf actual var h k1 (hmem _ (List.mem_of_getElem? h1')) (by rw [t1]; simp)
  rw [hl.2.2.1 hs k0 (List.mem_of_getElem? h0), hx, t0] at s0
  rw [hl.2.2.1 hs k1 (List.mem_of_getElem? h1'), hy, t1] at s1
  exact ⟨x, y, hxy, s0.symm, s1.symm⟩

/-- `7 / 2` meets the hypotheses of `C91_fix_complete` and is fixed -/
theorem C91_fix_example :
    (∀ x ∈ nodes (.file {} [bin (num b!"7") b!"/" (num b!"2")]), Division x → ∀ d ∈ x.kids, ¬ Division d) ∧
    (∀ x ∈ nodes (.file {} [bin (num b!"7") b!"/" (num b!"2")]), ∀ d, Entry x d → ¬ Division d) ∧
    fixDivisions (.file {} [bin (num b!"7") b!"/" (num b!"2")]) = [.file {} [bin (num b!"7") b!"//" (num b!"2")]] := by
  refine ⟨?_, ?_, rfl⟩
  · intro x hx hd d hdk
    rw [← C91_division] at hd ⊢
    have : ∀ x ∈ nodes (.file {} [bin (num b!"7") b!"/" (num b!"2")]), isIntDiv x = true → ∀ d ∈ x.kids, ¬ isIntDiv d = true := by decide +kernel
    exact this x hx hd d hdk
  · intro x hx d he
    have hx' : x.expr = .file {} [bin (num b!"7") b!"/" (num b!"2")] ∨ x.expr = bin (num b!"7") b!"/" (num b!"2") ∨ x.expr = num b!"7" ∨ x.expr = num b!"2" := by
      have h1 := List.mem_map_of_mem (f := TNode.expr) hx
      have h2 : (nodes (.file {} [bin (num b!"7") b!"/" (num b!"2")])).map TNode.expr =
          [.file {} [bin (num b!"7") b!"/" (num b!"2")], bin (num b!"7") b!"/" (num b!"2"), num b!"7", num b!"2"] := rfl
      rw [h2] at h1
      simpa only [List.mem_cons, List.not_mem_nil, or_false] using h1
    cases he <;> (rename_i h _; rw [h] at hx'; rcases hx' with h | h | h | h <;> cases h)

end Verif.Props.TypeWarn
