import Verif.Model.ReorderArgs
import Verif.Proofs.Sort
/-
C15: reordering call arguments: positional, keyword, *args, **kwargs, keeping the order inside each class.
-/
namespace Verif.Props.ReorderArgs
open Verif Verif.Syntax Verif.Rewrite

/-! ### Specification -/
def isKwargs : Expr → Bool
  | .unary _ _ op _ => op == b!"**"
  | _ => false
def isArgs : Expr → Bool
  | .unary _ _ op _ => op == b!"*"
  | _ => false
def isKeyword : Expr → Bool
  | .assign .. => true
  | _ => false
def isPositional (x : Expr) : Bool := !isKeyword x && !isArgs x && !isKwargs x

theorem class_pos (x : Expr) : isPositional x = (argumentType x == 1) := by
  cases x <;> simp [isPositional, isKeyword, isArgs, isKwargs, argumentType]
  rename_i op _
  by_cases h1 : op = b!"**"
  · simp [h1]
  · by_cases h2 : op = b!"*" <;> simp [h1, h2]
theorem class_kw (x : Expr) : isKeyword x = (argumentType x == 2) := by
  cases x <;> simp [isKeyword, argumentType]
  rename_i op _
  by_cases h1 : op = b!"**"
  · simp [h1]
  · by_cases h2 : op = b!"*" <;> simp [h1, h2]
theorem class_args (x : Expr) : isArgs x = (argumentType x == 3) := by
  cases x <;> simp [isArgs, argumentType]
  rename_i op _
  by_cases h1 : op = b!"**"
  · simp [h1]
  · by_cases h2 : op = b!"*" <;> simp [h1, h2]
theorem class_kwargs (x : Expr) : isKwargs x = (argumentType x == 4) := by
  cases x <;> simp [isKwargs, argumentType]
  rename_i op _
  by_cases h1 : op = b!"**"
  · simp [h1]
  · by_cases h2 : op = b!"*" <;> simp [h1, h2]

theorem argumentType_range (x : Expr) : 1 ≤ argumentType x ∧ argumentType x ≤ 4 := by
  cases x <;> simp [argumentType]
  rename_i op _
  by_cases h1 : op = b!"**"
  · simp [h1]
  · by_cases h2 : op = b!"*" <;> simp [h1, h2]

theorem isSorted_congr {α} {f g : α → α → Bool} (l : List α) (h : ∀ a ∈ l, ∀ b ∈ l, f a b = g a b) :
    isSorted f l = isSorted g l := by
  induction l with
  | nil => rfl
  | cons a l ih =>
    cases l with
    | nil => rfl
    | cons b l =>
      rw [isSorted, isSorted, h b (by simp) a (by simp), ih (fun x hx y hy => h x (by simp [hx]) y (by simp [hy]))]

theorem insertBy_congr {α} {f g : α → α → Bool} (x : α) (l : List α) (h : ∀ a ∈ l, f a x = g a x) :
    insertBy f x l = insertBy g x l := by
  induction l with
  | nil => rfl
  | cons b l ih => rw [insertBy, insertBy, h b (by simp), ih (fun a ha => h a (by simp [ha]))]

theorem sortBy_congr {α} {f g : α → α → Bool} (l : List α) (h : ∀ a ∈ l, ∀ b ∈ l, f a b = g a b) :
    sortBy f l = sortBy g l := by
  induction l with
  | nil => rfl
  | cons a l ih =>
    rw [sortBy, sortBy, ih (fun x hx y hy => h x (by simp [hx]) y (by simp [hy]))]
    apply insertBy_congr
    intro b hb
    exact h b (by simp [(sortBy_perm g l).mem_iff.mp hb]) a (by simp)

theorem reorder_eq (l : List Expr) (h : ∀ x ∈ l, x.isNil = false) :
    reorderArgs l = sortBy (keyLessN argumentType) l := by
  have e : ∀ a ∈ l, ∀ b ∈ l, argTypeLess a b = keyLessN argumentType a b := by
    intro a ha b hb; simp [argTypeLess, keyLessN, h a ha, h b hb]
  unfold reorderArgs
  rw [isSorted_congr l e, sortBy_congr l e, sortBy_isSorted_or (keyLessN_strictWeak _)]

/-- a list sorted by a key with values 1..4 is the concatenation of its classes -/
theorem sorted_classes (l : List Expr) (h : Sorted (keyLessN argumentType) l) :
    l = l.filter (fun x => argumentType x == 1) ++ (l.filter (fun x => argumentType x == 2) ++
      (l.filter (fun x => argumentType x == 3) ++ l.filter (fun x => argumentType x == 4))) := by
  induction l with
  | nil => rfl
  | cons x l ih =>
    unfold Sorted at h
    rw [List.pairwise_cons] at h
    have hx := argumentType_range x
    have hge : ∀ y ∈ l, argumentType x ≤ argumentType y := by
      intro y hy; have := h.1 y hy; simp [keyLessN] at this; exact this
    have hnil : ∀ k, k < argumentType x → l.filter (fun y => argumentType y == k) = [] := by
      intro k hk
      rw [List.filter_eq_nil_iff]
      intro y hy
      have := hge y hy
      simp; omega
    have hih := ih h.2
    have : argumentType x = 1 ∨ argumentType x = 2 ∨ argumentType x = 3 ∨ argumentType x = 4 := by omega
    rcases this with e | e | e | e
    · simp only [List.filter_cons, e]; simp only [Nat.reduceBEq, Bool.false_eq_true, if_false, if_true, List.cons_append]
      exact congrArg _ hih
    · rw [hnil 1 (by omega)] at hih
      simp only [List.filter_cons, e, hnil 1 (by omega)]
      simp only [Nat.reduceBEq, Bool.false_eq_true, if_false, if_true, List.cons_append, List.nil_append] at hih ⊢
      exact congrArg _ hih
    · rw [hnil 1 (by omega), hnil 2 (by omega)] at hih
      simp only [List.filter_cons, e, hnil 1 (by omega), hnil 2 (by omega)]
      simp only [Nat.reduceBEq, Bool.false_eq_true, if_false, if_true, List.cons_append, List.nil_append] at hih ⊢
      exact congrArg _ hih
    · rw [hnil 1 (by omega), hnil 2 (by omega), hnil 3 (by omega)] at hih
      simp only [List.filter_cons, e, hnil 1 (by omega), hnil 2 (by omega), hnil 3 (by omega)]
      simp only [Nat.reduceBEq, Bool.false_eq_true, if_false, if_true, List.nil_append] at hih ⊢
      exact congrArg _ hih

/-- **C15**: the result is the positional arguments, then the keyword arguments, then `*args`, then `**kwargs`, each class
in its original order. (An argument list of a parsed call contains no nil.) -/
theorem C15_reorder (l : List Expr) (h : ∀ x ∈ l, x.isNil = false) :
    reorderArgs l = l.filter isPositional ++ l.filter isKeyword ++ l.filter isArgs ++ l.filter isKwargs := by
  rw [reorder_eq l h]
  have hf : ∀ k, (sortBy (keyLessN argumentType) l).filter (fun x => argumentType x == k)
      = l.filter (fun x => argumentType x == k) := by
    intro k
    apply sortBy_filter
    intro a b hab ha
    simp [keyLessN] at hab ha ⊢
    omega
  have hs := sorted_classes _ (sortBy_sorted (keyLessN_strictWeak argumentType) l)
  rw [hf, hf, hf, hf] at hs
  rw [hs, List.append_assoc, List.append_assoc]
  have e1 : (fun x => argumentType x == 1) = isPositional := by funext x; exact (class_pos x).symm
  have e2 : (fun x => argumentType x == 2) = isKeyword := by funext x; exact (class_kw x).symm
  have e3 : (fun x => argumentType x == 3) = isArgs := by funext x; exact (class_args x).symm
  have e4 : (fun x => argumentType x == 4) = isKwargs := by funext x; exact (class_kwargs x).symm
  rw [e1, e2, e3, e4]

/-- **C15**: reordering is idempotent. -/
theorem C15_idempotent (l : List Expr) (h : ∀ x ∈ l, x.isNil = false) : reorderArgs (reorderArgs l) = reorderArgs l := by
  have h2 : ∀ x ∈ reorderArgs l, x.isNil = false := by
    intro x hx
    rw [reorder_eq l h] at hx
    exact h x ((sortBy_perm _ l).mem_iff.mp hx)
  rw [reorder_eq _ h2, reorder_eq l h]
  exact sortBy_of_sorted _ (sortBy_sorted (keyLessN_strictWeak _) l)

/-- **C15**: a call whose arguments are already in a legal order (no class appears after a later one) is untouched. -/
theorem C15_legal_untouched (p k a w : List Expr) (hp : ∀ x ∈ p, isPositional x = true)
    (hk : ∀ x ∈ k, isKeyword x = true) (ha : ∀ x ∈ a, isArgs x = true) (hw : ∀ x ∈ w, isKwargs x = true) :
    reorderArgs (p ++ k ++ a ++ w) = p ++ k ++ a ++ w := by
  unfold reorderArgs
  have hs : Sorted argTypeLess (p ++ k ++ a ++ w) := by
    have cl : ∀ x y : Expr, argumentType x ≤ argumentType y → argTypeLess y x = false := by
      intro x y hxy
      unfold argTypeLess
      split
      · rfl
      · simp; exact hxy
    have hp' : ∀ x ∈ p, argumentType x = 1 := fun x hx => by have := hp x hx; rw [class_pos] at this; exact beq_iff_eq.mp this
    have hk' : ∀ x ∈ k, argumentType x = 2 := fun x hx => by have := hk x hx; rw [class_kw] at this; exact beq_iff_eq.mp this
    have ha' : ∀ x ∈ a, argumentType x = 3 := fun x hx => by have := ha x hx; rw [class_args] at this; exact beq_iff_eq.mp this
    have hw' : ∀ x ∈ w, argumentType x = 4 := fun x hx => by have := hw x hx; rw [class_kwargs] at this; exact beq_iff_eq.mp this
    have one : ∀ (l : List Expr) (n : Nat), (∀ x ∈ l, argumentType x = n) → l.Pairwise fun x y => argTypeLess y x = false := by
      intro l n hl
      rw [List.pairwise_iff_forall_sublist]
      intro x y hxy
      have h1 := hl x (hxy.subset (by simp))
      have h2 := hl y (hxy.subset (by simp))
      exact cl x y (by omega)
    unfold Sorted
    rw [List.pairwise_append, List.pairwise_append, List.pairwise_append]
    refine ⟨⟨⟨one p 1 hp', one k 2 hk', ?_⟩, one a 3 ha', ?_⟩, one w 4 hw', ?_⟩
    · intro x hx y hy; exact cl x y (by rw [hp' x hx, hk' y hy]; omega)
    · intro x hx y hy
      rw [List.mem_append] at hx
      rcases hx with hx | hx
      · exact cl x y (by rw [hp' x hx, ha' y hy]; omega)
      · exact cl x y (by rw [hk' x hx, ha' y hy]; omega)
    · intro x hx y hy
      rw [List.mem_append, List.mem_append] at hx
      rcases hx with (hx | hx) | hx
      · exact cl x y (by rw [hp' x hx, hw' y hy]; omega)
      · exact cl x y (by rw [hk' x hx, hw' y hy]; omega)
      · exact cl x y (by rw [ha' x hx, hw' y hy]; omega)
  have hi : ∀ l : List Expr, Sorted argTypeLess l → isSorted argTypeLess l = true := by
    intro l
    induction l with
    | nil => intro _; rfl
    | cons x l ih =>
      intro h
      unfold Sorted at h
      rw [List.pairwise_cons] at h
      cases l with
      | nil => rfl
      | cons y l => rw [isSorted, h.1 y (by simp), ih h.2]; rfl
  rw [hi _ hs]; rfl

/-- concrete case -/
example : reorderArgs [.unary {} {} b!"**" (.ident { name := b!"k" }), .assign {} (.ident { name := b!"a" }) {} b!"=" false .nil,
      .literal {} {} b!"1", .unary {} {} b!"*" (.ident { name := b!"r" }), .literal {} {} b!"2"]
    = [.literal {} {} b!"1", .literal {} {} b!"2", .assign {} (.ident { name := b!"a" }) {} b!"=" false .nil,
      .unary {} {} b!"*" (.ident { name := b!"r" }), .unary {} {} b!"**" (.ident { name := b!"k" })] := by rfl

end Verif.Props.ReorderArgs
