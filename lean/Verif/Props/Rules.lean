import Verif.Model.Rules
/-
C35: inserting and deleting rules. C59: file-level fixes.
-/
namespace Verif.Props.Rules
open Verif Verif.Syntax Verif.Rewrite Verif.Edit

/-! ### Specification -/

/-- the value of the first keyword argument `name` -/
def firstName (args : List Expr) : Option Expr := args.findSome? fun
  | .assign _ (.ident i) _ _ _ r => if i.name = b!"name" then some r else none
  | _ => none

/-- the name a rule is given explicitly, as a string; "" if there is none -/
def explicitName (args : List Expr) : Bytes :=
  match firstName args with
  | some (.string s) => s.value
  | _ => []

/-- `x` is the dotted name `a.b.c` -/
inductive Dotted : Expr → List Bytes → Prop
  | ident (c p n) : Dotted (.ident ⟨c, p, n⟩) [n]
  | dot (c x d p n ns) : Dotted x ns → Dotted (.dot c x d p n) (ns ++ [n])

/-- the parts, joined by dots -/
def joinDots : List Bytes → Bytes
  | [] => []
  | [a] => a
  | a :: l => a ++ b!"." ++ joinDots l

/-- the call `x(args)` has no explicit name, but a kind (a dotted name that is not empty) -/
def Anonymous (x : Expr) (args : List Expr) : Prop :=
  explicitName args = [] ∧ ∃ ns, Dotted x ns ∧ joinDots ns ≠ []

open Classical in
/-- the anonymous calls among the statements -/
noncomputable def anonymous (stmts : List Expr) : List Expr :=
  stmts.filter fun e => decide (∃ c x p l e' a b, e = .call c x p l e' a b ∧ Anonymous x l)

/-- In a directory, the only anonymous rule has the name of the directory, unless a rule has that name. -/
def ImplicitName (dir : Option Bytes) (stmts : List Expr) (n : Bytes) : Prop :=
  dir = some n ∧ (∀ c x p l e a b, Expr.call c x p l e a b ∈ stmts → explicitName l ≠ n) ∧ (anonymous stmts).length = 1

/-- The statement is a call that has the name `n` in the file. -/
def Named (dir : Option Bytes) (stmts : List Expr) (n : Bytes) (stmt : Expr) : Prop :=
  ∃ c x p l e a b, stmt = .call c x p l e a b ∧
    ((explicitName l ≠ [] ∧ n = explicitName l) ∨
     (explicitName l = [] ∧ Dotted x [b!"package"] ∧ n = []) ∨
     (explicitName l = [] ∧ ¬ Dotted x [b!"package"] ∧ (ImplicitName dir stmts n ∨ (n = [] ∧ ∀ m, ¬ ImplicitName dir stmts m))))

/-- the kind of a call: its dotted name; none has the kind "" -/
def OfKind (k : Bytes) (stmt : Expr) : Prop :=
  ∃ c x p l e a b, stmt = .call c x p l e a b ∧ ((∃ ns, Dotted x ns ∧ joinDots ns = k) ∨ ((∀ ns, ¬ Dotted x ns) ∧ k = []))

def IsComment (e : Expr) : Prop := ∃ c p, e = .commentBlock c p

/-- a call of the function `n` -/
def CallOf (n : Bytes) (e : Expr) : Prop := ∃ c ci pi p l e' a b, e = .call c (.ident ⟨ci, pi, n⟩) p l e' a b

/-! ### Proofs: names -/

theorem attr_firstName (args : List Expr) : attr b!"name" args = (firstName args).getD .nil := by
  induction args with
  | nil => rfl
  | cons x l ih =>
    have skip : attr b!"name" (x :: l) = attr b!"name" l → firstName (x :: l) = firstName l →
        attr b!"name" (x :: l) = (firstName (x :: l)).getD .nil := fun h1 h2 => by rw [h1, h2, ih]
    cases x
    case assign c lhs p o lb r =>
      cases lhs
      case ident i =>
        by_cases h : i.name = b!"name"
        · simp [attr, firstName, h]
        · exact skip (by simp [attr, h]) (by simp [firstName, h])
      all_goals exact skip rfl rfl
    all_goals exact skip rfl rfl

theorem attrString_explicit (args : List Expr) : attrString b!"name" args = explicitName args := by
  unfold attrString explicitName
  rw [attr_firstName]
  cases firstName args with
  | none => rfl
  | some e => cases e <;> rfl

theorem joinDots_cons (a b : Bytes) (l : List Bytes) : joinDots (a :: b :: l) = a ++ b!"." ++ joinDots (b :: l) := rfl

theorem joinDots_snoc (ns : List Bytes) (hn : ns ≠ []) (s : Bytes) : joinDots (ns ++ [s]) = joinDots ns ++ b!"." ++ s := by
  induction ns with
  | nil => exact absurd rfl hn
  | cons a l ih =>
    cases l with
    | nil => rfl
    | cons b l =>
      rw [List.cons_append, List.cons_append, joinDots_cons, joinDots_cons, ← List.cons_append, ih (by simp)]
      simp

theorem dotted_ne_nil {x : Expr} {ns : List Bytes} (h : Dotted x ns) : ns ≠ [] := by
  cases h <;> simp

theorem kindDot {x : Expr} {ns : List Bytes} (h : Dotted x ns) : ∀ s, kindOf.kindOfDot x s = joinDots ns ++ b!"." ++ s := by
  induction h with
  | ident c p n => intro s; rfl
  | dot c x d p n ns hx ih =>
    intro s
    show kindOf.kindOfDot x (n ++ b!"." ++ s) = _
    rw [ih, joinDots_snoc _ (dotted_ne_nil hx)]
    simp

theorem kind_dotted {x : Expr} {ns : List Bytes} (h : Dotted x ns) : kindOf x = joinDots ns := by
  cases h with
  | ident => rfl
  | dot c x d p n ns hx =>
    show kindOf.kindOfDot x n = _
    rw [kindDot hx, joinDots_snoc _ (dotted_ne_nil hx)]

theorem dotted_iff_dot (c x d p n) : (∃ ns, Dotted (.dot c x d p n) ns) ↔ ∃ ns, Dotted x ns :=
  ⟨fun ⟨_, h⟩ => by cases h with | dot _ _ _ _ _ ns h => exact ⟨ns, h⟩, fun ⟨ns, h⟩ => ⟨_, .dot _ _ _ _ _ _ h⟩⟩

theorem kindDot_none : ∀ (x : Expr) (s : Bytes), (∀ ns, ¬ Dotted x ns) → kindOf.kindOfDot x s = []
  | .ident ⟨c, p, n⟩, _, h => absurd (.ident c p n) (h _)
  | .dot c x d p n, _, h => kindDot_none x _ fun ns hn => h _ (.dot c x d p n ns hn)
  | .nil, _, _ | .commentBlock .., _, _ | .typedIdent .., _, _ | .branch .., _, _ | .literal .., _, _ | .string .., _, _
  | .call .., _, _ | .compr .., _, _ | .forClause .., _, _ | .ifClause .., _, _ | .keyValue .., _, _ | .dict .., _, _
  | .list .., _, _ | .set .., _, _ | .tuple .., _, _ | .unary .., _, _ | .binary .., _, _ | .assign .., _, _ | .paren .., _, _
  | .slice .., _, _ | .index .., _, _ | .lambda .., _, _ | .cond .., _, _ | .load .., _, _ | .defS .., _, _ | .returnS .., _, _
  | .forS .., _, _ | .ifS .., _, _ | .file .., _, _ => rfl

theorem kind_none (x : Expr) (h : ∀ ns, ¬ Dotted x ns) : kindOf x = [] := by
  cases x
  case ident i => exact absurd (.ident _ _ _) (h _)
  case dot c x d p n => exact kindDot_none x n fun ns hn => h _ (.dot c x d p n ns hn)
  all_goals rfl

/-- **C35 (kinds).** The kind of a call is its dotted name, and "" if its function is anything else. -/
theorem C35_kind (c x p l e a b) (k : Bytes) : kindOf x = k ↔ OfKind k (.call c x p l e a b) := by
  constructor
  · intro h
    refine ⟨c, x, p, l, e, a, b, rfl, ?_⟩
    by_cases hd : ∃ ns, Dotted x ns
    · obtain ⟨ns, hd⟩ := hd
      exact .inl ⟨ns, hd, by rw [← kind_dotted hd]; exact h⟩
    · have hd' : ∀ ns, ¬ Dotted x ns := fun ns hn => hd ⟨ns, hn⟩
      exact .inr ⟨hd', by rw [← h]; exact kind_none x hd'⟩
  · rintro ⟨_, _, _, _, _, _, _, he, h⟩
    cases he
    rcases h with ⟨ns, hd, rfl⟩ | ⟨hd, rfl⟩
    · exact kind_dotted hd
    · exact kind_none x hd

theorem anonymous_iff (x : Expr) (l : List Expr) : (kindOf x ≠ [] ∧ attrString b!"name" l = []) ↔ Anonymous x l := by
  rw [attrString_explicit, Anonymous, and_comm]
  refine and_congr_right fun _ => ?_
  constructor
  · intro h
    by_cases hd : ∃ ns, Dotted x ns
    · obtain ⟨ns, hd⟩ := hd
      exact ⟨ns, hd, by rw [← kind_dotted hd]; exact h⟩
    · exact absurd (kind_none x fun ns hn => hd ⟨ns, hn⟩) h
  · rintro ⟨ns, hd, h⟩
    rw [kind_dotted hd]; exact h

open Classical in
theorem anonymous_cons_call (c x p l e a b) (stmts : List Expr) :
    anonymous (.call c x p l e a b :: stmts) =
      if kindOf x ≠ [] ∧ attrString b!"name" l = [] then .call c x p l e a b :: anonymous stmts else anonymous stmts := by
  unfold anonymous
  rw [List.filter_cons]
  by_cases h : Anonymous x l
  · rw [if_pos ((anonymous_iff x l).mpr h), if_pos (by simp only [decide_eq_true_eq]; exact ⟨_, _, _, _, _, _, _, rfl, h⟩)]
  · rw [if_neg (fun h' => h ((anonymous_iff x l).mp h')), if_neg]
    simp only [decide_eq_true_eq]
    rintro ⟨_, _, _, _, _, _, _, he, h'⟩
    cases he; exact h h'

open Classical in
theorem anonymous_cons_other (e : Expr) (stmts : List Expr) (h : ∀ c x p l e' a b, e ≠ .call c x p l e' a b) :
    anonymous (e :: stmts) = anonymous stmts := by
  unfold anonymous
  rw [List.filter_cons, if_neg]
  simp only [decide_eq_true_eq]
  rintro ⟨_, _, _, _, _, _, _, he, _⟩
  exact h _ _ _ _ _ _ _ he

theorem implicitLoop_spec (base : Bytes) (stmts : List Expr) : ∀ saw,
    implicitLoop base stmts saw = some true ↔
      (∀ c x p l e a b, Expr.call c x p l e a b ∈ stmts → explicitName l ≠ base) ∧
      (anonymous stmts).length + (if saw then 1 else 0) = 1 := by
  induction stmts with
  | nil => intro saw; cases saw <;> simp [implicitLoop, anonymous]
  | cons e stmts ih =>
    intro saw
    have other : (∀ c x p l e' a b, e ≠ .call c x p l e' a b) → implicitLoop base (e :: stmts) saw = implicitLoop base stmts saw →
        (implicitLoop base (e :: stmts) saw = some true ↔
          (∀ c x p l e' a b, Expr.call c x p l e' a b ∈ e :: stmts → explicitName l ≠ base) ∧
          (anonymous (e :: stmts)).length + (if saw then 1 else 0) = 1) := by
      intro h1 h2
      rw [h2, anonymous_cons_other e stmts h1, ih]
      refine and_congr_left fun _ => ?_
      constructor
      · intro h c x p l e' a b hm
        rcases List.mem_cons.mp hm with hm | hm
        · exact absurd hm.symm (h1 _ _ _ _ _ _ _)
        · exact h _ _ _ _ _ _ _ hm
      · intro h c x p l e' a b hm
        exact h c x p l e' a b (List.mem_cons_of_mem _ hm)
    cases e
    case call c x p l e a b =>
      unfold implicitLoop
      rw [anonymous_cons_call]
      by_cases h1 : attrString b!"name" l = base
      · rw [if_pos h1]
        constructor
        · intro h; cases h
        · rintro ⟨h, _⟩
          exact absurd (by rw [← attrString_explicit]; exact h1) (h c x p l e a b (by simp))
      · rw [if_neg h1]
        have hall : (∀ c' x' p' l' e' a' b', Expr.call c' x' p' l' e' a' b' ∈ Expr.call c x p l e a b :: stmts → explicitName l' ≠ base) ↔
            (∀ c' x' p' l' e' a' b', Expr.call c' x' p' l' e' a' b' ∈ stmts → explicitName l' ≠ base) := by
          constructor
          · intro h c' x' p' l' e' a' b' hm
            exact h c' x' p' l' e' a' b' (List.mem_cons_of_mem _ hm)
          · intro h c' x' p' l' e' a' b' hm
            rcases List.mem_cons.mp hm with hm | hm
            · cases hm; rw [← attrString_explicit]; exact h1
            · exact h _ _ _ _ _ _ _ hm
        rw [hall]
        by_cases h2 : kindOf x ≠ [] ∧ attrString b!"name" l = []
        · rw [if_pos h2, if_pos h2]
          cases saw with
          | true =>
            simp only [if_true, List.length_cons]
            constructor
            · intro h; cases h
            · rintro ⟨_, h⟩; omega
          | false =>
            rw [if_neg (by simp), ih]
            simp
        · rw [if_neg h2, if_neg h2]
          exact ih saw
    all_goals exact other (by intros; simp) rfl

/-- **C35 (implicit names).** -/
theorem C35_implicit_name (dir : Option Bytes) (stmts : List Expr) (n : Bytes) (hn : n ≠ []) :
    implicitRuleName dir stmts = n ↔ ImplicitName dir stmts n := by
  unfold implicitRuleName ImplicitName
  cases dir with
  | none => simpa using hn.symm
  | some base =>
    have := implicitLoop_spec base stmts false
    simp only [Bool.false_eq_true, if_false, Nat.add_zero] at this
    dsimp only
    cases h : implicitLoop base stmts false with
    | none =>
      rw [h] at this
      dsimp only
      simp only [Option.some.injEq]
      constructor
      · intro h'; exact absurd h'.symm hn
      · rintro ⟨rfl, h'⟩
        exact absurd (this.mpr h') (by simp)
    | some v =>
      rw [h] at this
      cases v with
      | false =>
        dsimp only
        simp only [Option.some.injEq]
        constructor
        · intro h'; exact absurd h'.symm hn
        · rintro ⟨rfl, h'⟩
          exact absurd (this.mpr h') (by simp)
      | true =>
        dsimp only
        simp only [Option.some.injEq]
        constructor
        · rintro rfl; exact ⟨rfl, this.mp rfl⟩
        · rintro ⟨rfl, _⟩; rfl

theorem package_kind (x : Expr) : kindOf x = b!"package" ↔ Dotted x [b!"package"] := by
  constructor
  · intro h
    have hd : ∃ ns, Dotted x ns := by
      apply Classical.byContradiction
      intro hc
      rw [kind_none x fun ns hn => hc ⟨ns, hn⟩] at h
      cases h
    obtain ⟨ns, hd⟩ := hd
    rw [kind_dotted hd] at h
    have hcat : ∀ (a b : Bytes), a ++ b!"." ++ b ≠ b!"package" := by
      intro a b he
      have : c!"." ∈ b!"package" := by rw [← he]; simp
      revert this
      decide
    cases hd with
    | ident c p n => rw [show n = b!"package" from h]; exact .ident _ _ _
    | dot c x d p n ns hx =>
      rw [joinDots_snoc _ (dotted_ne_nil hx)] at h
      exact absurd h (hcat _ _)
  · intro h; exact kind_dotted h

theorem implicit_empty_name (stmts : List Expr) : ¬ ImplicitName (some []) stmts [] := by
  rintro ⟨_, h1, h2⟩
  have : ∃ e, e ∈ anonymous stmts := by
    cases h : anonymous stmts with
    | nil => rw [h] at h2; cases h2
    | cons e l => exact ⟨e, by simp⟩
  obtain ⟨e, he⟩ := this
  obtain ⟨hm, hd⟩ := List.mem_filter.mp he
  simp only [decide_eq_true_eq] at hd
  obtain ⟨c, x, p, l, e', a, b, rfl, ha⟩ := hd
  exact h1 _ _ _ _ _ _ _ hm ha.1

theorem ruleName_named (dir : Option Bytes) (stmts : List Expr) (n : Bytes) (c x p l e a b) :
    ruleName (implicitRuleName dir stmts) x l = n ↔ Named dir stmts n (.call c x p l e a b) := by
  unfold ruleName
  rw [attrString_explicit]
  have hN : Named dir stmts n (.call c x p l e a b) ↔ ((explicitName l ≠ [] ∧ n = explicitName l) ∨
     (explicitName l = [] ∧ Dotted x [b!"package"] ∧ n = []) ∨
     (explicitName l = [] ∧ ¬ Dotted x [b!"package"] ∧ (ImplicitName dir stmts n ∨ (n = [] ∧ ∀ m, ¬ ImplicitName dir stmts m)))) := by
    constructor
    · rintro ⟨_, _, _, _, _, _, _, he, h⟩; cases he; exact h
    · intro h; exact ⟨_, _, _, _, _, _, _, rfl, h⟩
  rw [hN]
  have hp : (kindOf x ≠ b!"package") ↔ ¬ Dotted x [b!"package"] := not_congr (package_kind x)
  by_cases h1 : explicitName l = []
  · by_cases h2 : Dotted x [b!"package"]
    · rw [if_neg (by rintro ⟨_, h⟩; exact hp.mp h h2)]
      simp only [h1, h2, ne_eq, not_true_eq_false, false_and, true_and, false_or, or_false, eq_comm]
    · rw [if_pos ⟨h1, hp.mpr h2⟩]
      simp only [h1, h2, ne_eq, not_true_eq_false, not_false_eq_true, false_and, true_and, false_or]
      by_cases hn : n = []
      · subst hn
        constructor
        · intro h
          refine .inr ⟨rfl, ?_⟩
          intro m hm
          by_cases hm0 : m = []
          · subst hm0
            have := hm.1
            subst this
            exact implicit_empty_name stmts hm
          · rw [(C35_implicit_name dir stmts m hm0).mpr hm] at h
            exact hm0 h
        · rintro (h | ⟨_, h⟩)
          · have := h.1; subst this; exact absurd h (implicit_empty_name stmts)
          · apply Classical.byContradiction
            intro hne
            exact h _ ((C35_implicit_name dir stmts _ hne).mp rfl)
      · rw [C35_implicit_name dir stmts n hn]
        simp [hn]
  · rw [if_neg (by rintro ⟨h, _⟩; exact h1 h)]
    simp only [h1, ne_eq, not_false_eq_true, true_and, false_and, or_false]
    exact eq_comm

/-! ### deleting -/

open Classical in
/-- **C35 (delete by name).** Exactly the statements that have the name are removed; the others stay, in order. -/
theorem C35_delete_by_name (dir : Option Bytes) (name : Bytes) (stmts : List Expr) :
    deleteRuleByName dir name stmts = stmts.filter fun e => decide (¬ Named dir stmts name e) := by
  unfold deleteRuleByName
  apply List.filter_congr
  intro e hm
  clear hm
  have other : (∀ c x p l e' a b, e ≠ .call c x p l e' a b) → true = decide (¬ Named dir stmts name e) := by
    intro h
    rw [eq_comm, decide_eq_true_eq]
    rintro ⟨_, _, _, _, _, _, _, he, _⟩
    exact h _ _ _ _ _ _ _ he
  cases e
  case call c x p l e a b =>
    simp only [decide_not]
    congr 1
    exact decide_eq_decide.mpr (ruleName_named dir stmts name _ _ _ _ _ _ _)
  all_goals exact other (by intros; simp)

open Classical in
/-- **C35 (delete by kind).** Exactly the calls of the function are removed. -/
theorem C35_delete_by_kind (kind : Bytes) (stmts : List Expr) :
    deleteRuleByKind kind stmts = stmts.filter fun e => decide (¬ CallOf kind e) := by
  unfold deleteRuleByKind
  apply List.filter_congr
  intro e hm
  clear hm
  have other : ¬ CallOf kind e → true = decide (¬ CallOf kind e) := fun h => by simpa using h
  cases e
  case call c x p l e a b =>
    cases x
    case ident i =>
      cases i
      rename_i ci pi n
      simp only [ne_eq, decide_not]
      congr 1
      refine decide_eq_decide.mpr ⟨?_, ?_⟩
      · rintro rfl; exact ⟨_, _, _, _, _, _, _, _, rfl⟩
      · rintro ⟨_, _, _, _, _, _, _, _, he⟩; cases he; rfl
    all_goals exact other (by rintro ⟨_, _, _, _, _, _, _, _, he⟩; cases he)
  all_goals exact other (by rintro ⟨_, _, _, _, _, _, _, _, he⟩; cases he)

/-- **C35 (DeleteRule).** Exactly the statement of the rule is removed. -/
theorem C35_delete_rule (a b : List Expr) (x : Expr) : deleteRule a.length (a ++ x :: b) = a ++ b := by
  unfold deleteRule
  rw [List.eraseIdx_append_of_length_le (Nat.le_refl _), Nat.sub_self]
  rfl

/-- `package()` without arguments -/
def EmptyPackage (e : Expr) : Prop := ∃ c ci pi p e' a b, e = .call c (.ident ⟨ci, pi, b!"package"⟩) p [] e' a b

open Classical in
/-- **C35 (RemoveEmptyPackage).** Exactly the package declarations without arguments are removed. -/
theorem C35_remove_empty_package (stmts : List Expr) :
    removeEmptyPackage stmts = stmts.filter fun e => decide (¬ EmptyPackage e) := by
  unfold removeEmptyPackage
  apply List.filter_congr
  intro e hm
  clear hm
  have other : ¬ EmptyPackage e → true = decide (¬ EmptyPackage e) := fun h => by simpa using h
  cases e
  case call c x p l e a b =>
    cases x
    case ident i =>
      cases i
      rename_i ci pi n
      cases l with
      | nil =>
        simp only [ne_eq, decide_not]
        congr 1
        refine decide_eq_decide.mpr ⟨?_, ?_⟩
        · rintro rfl; exact ⟨_, _, _, _, _, _, _, rfl⟩
        · rintro ⟨_, _, _, _, _, _, _, he⟩; cases he; rfl
      | cons y l => exact other (by rintro ⟨_, _, _, _, _, _, _, he⟩; cases he)
    all_goals exact other (by rintro ⟨_, _, _, _, _, _, _, he⟩; cases he)
  all_goals exact other (by rintro ⟨_, _, _, _, _, _, _, he⟩; cases he)

/-- what `DelRules` is to delete -/
def DelMatch (dir : Option Bytes) (stmts : List Expr) (kind name : Bytes) (e : Expr) : Prop :=
  (∃ c x p l e' a b, e = .call c x p l e' a b) ∧ (kind = [] ∨ OfKind kind e) ∧ (name = [] ∨ Named dir stmts name e)

theorem delRulesMatch_iff (dir : Option Bytes) (stmts : List Expr) (kind name : Bytes) (e : Expr) :
    delRulesMatch kind name (implicitRuleName dir stmts) e = true ↔ DelMatch dir stmts kind name e := by
  cases e
  case call c x p l e a b =>
    simp only [delRulesMatch, Bool.and_eq_true, Bool.or_eq_true, decide_eq_true_eq, DelMatch,
      C35_kind c x p l e a b, ruleName_named dir stmts name c x p l e a b]
    constructor
    · intro h; exact ⟨⟨_, _, _, _, _, _, _, rfl⟩, h.1, h.2⟩
    · rintro ⟨_, h⟩; exact h
  all_goals exact ⟨(fun h => nomatch h), by rintro ⟨⟨_, _, _, _, _, _, _, he⟩, _⟩; cases he⟩

theorem implicit_dir (dir : Option Bytes) (l : List Expr) : implicitRuleName dir l = [] ∨ dir = some (implicitRuleName dir l) := by
  unfold implicitRuleName
  cases dir with
  | none => exact .inl rfl
  | some b => dsimp only; split <;> simp

theorem delRules_fold (dir : Option Bytes) (kind name : Bytes) (stmts : List Expr) (hd : name = [] ∨ dir ≠ some name) :
    ∀ k, k ≤ stmts.length →
    (List.range k).foldl (delRulesStep dir kind name) (stmts, 0) =
      (((stmts.take k).filter fun e => !delRulesMatch kind name (implicitRuleName dir stmts) e) ++
        stmts.drop ((stmts.take k).filter fun e => !delRulesMatch kind name (implicitRuleName dir stmts) e).length,
       ((stmts.take k).filter fun e => !delRulesMatch kind name (implicitRuleName dir stmts) e).length) := by
  have hmatch : ∀ l1 l2 e, delRulesMatch kind name (implicitRuleName dir l1) e = delRulesMatch kind name (implicitRuleName dir l2) e := by
    intro l1 l2 e
    cases e
    case call c x p l e' a b =>
      simp only [delRulesMatch]
      by_cases hn : name = []
      · simp [hn]
      · have hd' : dir ≠ some name := by
          rcases hd with h | h
          · exact absurd h hn
          · exact h
        congr 2
        have : ∀ l', ruleName (implicitRuleName dir l') x l = name ↔
            (explicitName l = name) := by
          intro l'
          unfold ruleName
          rw [attrString_explicit]
          split
          · rename_i h
            rw [h.1]
            constructor
            · intro h'
              rcases implicit_dir dir l' with h0 | h0
              · rw [← h', h0]
              · rw [h'] at h0; exact absurd h0 hd'
            · intro h'; exact absurd h'.symm hn
          · rfl
        simp only [this]
    all_goals rfl
  intro k
  induction k with
  | zero => intro _; simp
  | succ k ih =>
    intro hk
    rw [List.range_succ, List.foldl_append, ih (by omega), List.foldl_cons, List.foldl_nil]
    have hle : ((stmts.take k).filter fun e => !delRulesMatch kind name (implicitRuleName dir stmts) e).length ≤ k := by
      have := List.length_filter_le (fun e => !delRulesMatch kind name (implicitRuleName dir stmts) e) (stmts.take k)
      simp only [List.length_take] at this
      omega
    revert hle
    rw [List.take_add_one, List.filter_append]
    generalize (stmts.take k).filter (fun e => !delRulesMatch kind name (implicitRuleName dir stmts) e) = kept
    intro hle
    have hget : (kept ++ stmts.drop kept.length)[k]? = stmts[k]? := by
      rw [List.getElem?_append_right hle, List.getElem?_drop]
      congr 1
      omega
    have hs : stmts[k]? = some stmts[k] := List.getElem?_eq_getElem (by omega)
    unfold delRulesStep
    simp only [hget, hs, Option.toList_some]
    rw [hmatch _ stmts]
    by_cases hm : delRulesMatch kind name (implicitRuleName dir stmts) stmts[k] = true
    · simp [hm]
    · rw [Bool.not_eq_true] at hm
      simp only [hm, Bool.false_eq_true, if_false, Bool.not_false, List.filter_cons_of_pos, List.filter_nil, List.length_append,
        List.length_cons, List.length_nil]
      rw [List.set_append_right _ _ (Nat.le_refl _), Nat.sub_self]
      have hdrop : stmts.drop kept.length = stmts[kept.length]'(by omega) :: stmts.drop (kept.length + 1) := by
        rw [List.getElem_cons_drop]
      have hset : (stmts.drop kept.length).set 0 stmts[k] = stmts[k] :: stmts.drop (kept.length + 1) := by rw [hdrop]; rfl
      rw [hset]
      simp

open Classical in
/-- **C35 (DelRules), partial.** Exactly the calls of the kind (if one is given) with the name (if one is given) are removed, and
their number is returned. Missing: deleting the name of the directory, where it fails, see below. -/
theorem C35_delrules_partial (dir : Option Bytes) (kind name : Bytes) (stmts : List Expr) (hd : name = [] ∨ dir ≠ some name) :
    delRules dir kind name stmts =
      (stmts.filter fun e => decide (¬ DelMatch dir stmts kind name e),
       (stmts.filter fun e => decide (DelMatch dir stmts kind name e)).length) := by
  unfold delRules
  rw [delRules_fold dir kind name stmts hd _ (Nat.le_refl _)]
  simp only [List.take_length]
  have h1 : (stmts.filter fun e => !delRulesMatch kind name (implicitRuleName dir stmts) e) =
      stmts.filter fun e => decide (¬ DelMatch dir stmts kind name e) := by
    apply List.filter_congr
    intro e _
    have := delRulesMatch_iff dir stmts kind name e
    by_cases h : DelMatch dir stmts kind name e
    · simp [h, this.mpr h]
    · have hf : delRulesMatch kind name (implicitRuleName dir stmts) e = false := by
        rw [← Bool.not_eq_true]; exact fun h' => h (this.mp h')
      simp [h, hf]
  rw [h1, List.take_left']
  · congr 1
    have hlen : ∀ l : List Expr, l.length = (l.filter fun e => decide (DelMatch dir stmts kind name e)).length +
        (l.filter fun e => decide (¬ DelMatch dir stmts kind name e)).length := by
      intro l
      induction l with
      | nil => rfl
      | cons x l ih => by_cases h : DelMatch dir stmts kind name x <;> simp [h] at ih ⊢ <;> omega
    have := hlen stmts
    omega
  · rfl

/-! ### inserting -/

/-- **C35 (InsertAfter).** -/
theorem C35_insert_after (a b : List Expr) (e : Expr) : insertAt a.length (a ++ b) e = some (a ++ e :: b) := by
  simp [insertAt]

theorem beforeComments_spec (l : List Expr) : beforeComments l ≤ l.length ∧ (∀ e ∈ l.drop (beforeComments l), IsComment e) ∧
    (∀ e, (l.take (beforeComments l)).getLast? = some e → ¬ IsComment e) := by
  induction l with
  | nil => simp [beforeComments]
  | cons x l ih =>
    obtain ⟨h1, h2, h3⟩ := ih
    unfold beforeComments
    split
    · rename_i h
      refine ⟨by simp; omega, by simpa using h2, ?_⟩
      intro e he
      refine h3 e ?_
      rw [List.take_succ_cons, List.getLast?_cons] at he
      have hne : l.take (beforeComments l) ≠ [] := by
        intro h0
        have := congrArg List.length h0
        simp only [List.length_take, List.length_nil] at this
        omega
      cases hl : (l.take (beforeComments l)).getLast? with
      | none => exact absurd (List.getLast?_eq_none_iff.mp hl) hne
      | some y => rw [hl] at he; simpa using he
    · rename_i h
      have h0 : beforeComments l = 0 := by omega
      rw [h0] at h2
      simp only [List.drop_zero] at h2
      split
      · rename_i hc
        refine ⟨by simp, ?_, by simp⟩
        intro e he
        rcases List.mem_cons.mp (by simpa using he : e ∈ x :: l) with rfl | he
        · cases e <;> simp [isCommentBlock] at hc
          exact ⟨_, _, rfl⟩
        · exact h2 e he
      · rename_i hc
        refine ⟨by simp, by simpa using h2, ?_⟩
        intro e he
        simp only [List.take_succ_cons, List.take_zero, List.getLast?_singleton, Option.some.injEq] at he
        subst he
        rintro ⟨c, p, rfl⟩
        exact hc rfl

/-- **C35 (InsertAtEnd).** The statement is put after all others, except for the comments the file ends with. -/
theorem C35_insert_at_end (stmts : List Expr) (e : Expr) : ∃ a b, stmts = a ++ b ∧ insertAtEnd stmts e = some (a ++ e :: b) ∧
    (∀ x ∈ b, IsComment x) ∧ (∀ x, a.getLast? = some x → ¬ IsComment x) := by
  obtain ⟨h1, h2, h3⟩ := beforeComments_spec stmts
  exact ⟨_, _, (List.take_append_drop (beforeComments stmts) stmts).symm, by simp [insertAtEnd, insertAt, h1], h2, h3⟩

theorem isFunctionCall_iff (e : Expr) (n : Bytes) : isFunctionCall e n = true ↔ CallOf n e := by
  cases e
  case call c x p l e a b =>
    cases x
    case ident i =>
      cases i
      simp only [isFunctionCall, beq_iff_eq]
      exact ⟨fun h => by subst h; exact ⟨_, _, _, _, _, _, _, _, rfl⟩, fun ⟨_, _, _, _, _, _, _, _, he⟩ => by cases he; rfl⟩
    all_goals exact ⟨(fun h => nomatch h), fun ⟨_, _, _, _, _, _, _, _, he⟩ => nomatch he⟩
  all_goals exact ⟨(fun h => nomatch h), fun ⟨_, _, _, _, _, _, _, _, he⟩ => nomatch he⟩

theorem indexAfterLast_spec (kind : Bytes) (l : List Expr) :
    (indexAfterLast kind l = 0 ∧ ∀ e ∈ l, ¬ CallOf kind e) ∨
    ∃ a x b, l = a ++ x :: b ∧ CallOf kind x ∧ (∀ e ∈ b, ¬ CallOf kind e) ∧ indexAfterLast kind l = a.length + 1 := by
  induction l with
  | nil => exact .inl ⟨rfl, (fun e he => nomatch he)⟩
  | cons y l ih =>
    unfold indexAfterLast
    rcases ih with ⟨h0, hn⟩ | ⟨a, x, b, rfl, hx, hb, hi⟩
    · rw [if_neg (by simpa using h0)]
      by_cases hy : isFunctionCall y kind = true
      · rw [if_pos hy]
        exact .inr ⟨[], y, l, rfl, (isFunctionCall_iff y kind).mp hy, hn, rfl⟩
      · rw [if_neg hy]
        refine .inl ⟨rfl, ?_⟩
        intro e he
        rcases List.mem_cons.mp he with rfl | he
        · rwa [← isFunctionCall_iff]
        · exact hn e he
    · rw [if_pos (by omega)]
      exact .inr ⟨y :: a, x, b, rfl, hx, hb, by simp [hi]⟩

/-- **C35 (InsertAfterLastOfSameKind).** The call is put directly after the last call of the same function, and otherwise at the
end. -/
theorem C35_insert_same_kind (stmts : List Expr) (c : Comments) (i : IdentN) (p l e a b) :
    let stmt := Expr.call c (.ident i) p l e a b
    (∃ s x t, stmts = s ++ x :: t ∧ CallOf i.name x ∧ (∀ y ∈ t, ¬ CallOf i.name y) ∧
      insertAfterLastOfSameKind stmts stmt = some (s ++ x :: stmt :: t)) ∨
    ((∀ y ∈ stmts, ¬ CallOf i.name y) ∧ insertAfterLastOfSameKind stmts stmt = insertAtEnd stmts stmt) := by
  intro stmt
  rcases indexAfterLast_spec i.name stmts with ⟨h0, hn⟩ | ⟨s, x, t, rfl, hx, ht, hi⟩
  · exact .inr ⟨hn, by simp [insertAfterLastOfSameKind, stmt, h0]⟩
  · refine .inl ⟨s, x, t, rfl, hx, ht, ?_⟩
    simp only [insertAfterLastOfSameKind, stmt, hi]
    rw [if_neg (by omega)]
    have := C35_insert_after (s ++ [x]) t (.call c (.ident i) p l e a b)
    simpa using this

/-- what may stand before a package declaration: comments, strings, loads and `workspace()` -/
inductive BeforePackage : Expr → Prop
  | comment (c p) : BeforePackage (.commentBlock c p)
  | string (s) : BeforePackage (.string s)
  | load (c p m f t r fc) : BeforePackage (.load c p m f t r fc)
  | workspace (e) : CallOf b!"workspace" e → BeforePackage e

theorem packagePlace_spec (l : List Expr) : packagePlace l ≤ l.length ∧ (∀ e ∈ l.take (packagePlace l), BeforePackage e) ∧
    (∀ e, (l.drop (packagePlace l)).head? = some e → ¬ BeforePackage e) := by
  induction l with
  | nil => simp [packagePlace]
  | cons x l ih =>
    have yes : BeforePackage x → packagePlace (x :: l) = 1 + packagePlace l →
        packagePlace (x :: l) ≤ (x :: l).length ∧ (∀ e ∈ (x :: l).take (packagePlace (x :: l)), BeforePackage e) ∧
          (∀ e, ((x :: l).drop (packagePlace (x :: l))).head? = some e → ¬ BeforePackage e) := by
      intro h1 h2
      obtain ⟨a, b, c⟩ := ih
      rw [h2, Nat.add_comm]
      refine ⟨by simp; omega, ?_, by simpa using c⟩
      intro e he
      rcases List.mem_cons.mp (by simpa using he : e ∈ x :: l.take (packagePlace l)) with rfl | he
      · exact h1
      · exact b e he
    have no : ¬ BeforePackage x → packagePlace (x :: l) = 0 →
        packagePlace (x :: l) ≤ (x :: l).length ∧ (∀ e ∈ (x :: l).take (packagePlace (x :: l)), BeforePackage e) ∧
          (∀ e, ((x :: l).drop (packagePlace (x :: l))).head? = some e → ¬ BeforePackage e) := by
      intro h1 h2
      rw [h2]
      simp [h1]
    cases x
    case commentBlock => exact yes (.comment _ _) rfl
    case string => exact yes (.string _) rfl
    case load => exact yes (.load ..) rfl
    case call c x p ll e a b =>
      by_cases h : isFunctionCall (.call c x p ll e a b) b!"workspace" = true
      · exact yes (.workspace _ ((isFunctionCall_iff _ _).mp h)) (by simp only [packagePlace, h, if_true])
      · refine no ?_ (by simp only [packagePlace, h]; rfl)
        intro hb
        cases hb with
        | workspace _ hw => exact h ((isFunctionCall_iff _ _).mpr hw)
    all_goals
      refine no ?_ rfl
      intro hb
      cases hb with
      | workspace _ hw => obtain ⟨_, _, _, _, _, _, _, _, he⟩ := hw; cases he

theorem existing_spec (stmts : List Expr) :
    (existingPackage stmts = none ∧ ∀ e ∈ stmts, ¬ CallOf b!"package" e) ∨
    ∃ a x b, stmts = a ++ x :: b ∧ CallOf b!"package" x ∧ (∀ e ∈ a, ¬ CallOf b!"package" e) ∧ existingPackage stmts = some a.length := by
  unfold existingPackage
  induction stmts with
  | nil => exact .inl ⟨rfl, (fun e he => nomatch he)⟩
  | cons y l ih =>
    rw [List.findIdx?_cons]
    by_cases hy : isFunctionCall y b!"package" = true
    · rw [if_pos hy]
      exact .inr ⟨[], y, l, rfl, (isFunctionCall_iff _ _).mp hy, (fun e he => nomatch he), rfl⟩
    · rw [if_neg hy]
      have hy' : ¬ CallOf b!"package" y := by rwa [← isFunctionCall_iff]
      rcases ih with ⟨h0, hn⟩ | ⟨a, x, b, rfl, hx, ha, hi⟩
      · refine .inl ⟨by rw [h0]; rfl, ?_⟩
        intro e he
        rcases List.mem_cons.mp he with rfl | he
        · exact hy'
        · exact hn e he
      · refine .inr ⟨y :: a, x, b, rfl, hx, ?_, by rw [hi]; rfl⟩
        intro e he
        rcases List.mem_cons.mp he with rfl | he
        · exact hy'
        · exact ha e he

/-- **C35 (PackageDeclaration).** The first package declaration, if there is one; otherwise an empty one is put before the first
statement that is no comment, string, load or `workspace()`. -/
theorem C35_package_declaration (stmts : List Expr) :
    (∃ a x b, stmts = a ++ x :: b ∧ CallOf b!"package" x ∧ (∀ e ∈ a, ¬ CallOf b!"package" e) ∧
      packageDeclaration stmts = (stmts, a.length)) ∨
    ((∀ e ∈ stmts, ¬ CallOf b!"package" e) ∧ ∃ a b, stmts = a ++ b ∧ (∀ e ∈ a, BeforePackage e) ∧
      (∀ e, b.head? = some e → ¬ BeforePackage e) ∧
      packageDeclaration stmts = (a ++ .call {} (.ident { name := b!"package" }) {} [] {} false false :: b, a.length)) := by
  rcases existing_spec stmts with ⟨h0, hn⟩ | ⟨a, x, b, hs, hx, ha, hi⟩
  · obtain ⟨h1, h2, h3⟩ := packagePlace_spec stmts
    refine .inr ⟨hn, _, _, (List.take_append_drop (packagePlace stmts) stmts).symm, h2, h3, ?_⟩
    simp only [packageDeclaration, h0, List.length_take]
    congr 1
    omega
  · exact .inl ⟨a, x, b, hs, hx, ha, by simp only [packageDeclaration, hi]⟩

/-! ### C59: the package declaration moves to the top -/

/-- what may stand before a package declaration that is not moved -/
inductive MayPrecede : Expr → Prop
  | comment (c p) : MayPrecede (.commentBlock c p)
  | string (s) : MayPrecede (.string s)
  | assign (c x p o lb y) : MayPrecede (.assign c x p o lb y)
  | load (c p m f t r fc) : MayPrecede (.load c p m f t r fc)

theorem mayPrecede_iff (e : Expr) : mayPrecedePackage e = true ↔ MayPrecede e := by
  cases e <;> first
    | exact ⟨fun _ => by constructor, fun _ => rfl⟩
    | exact ⟨(fun h => nomatch h), (fun h => nomatch h)⟩

theorem not_mayPrecede_pkg {e : Expr} (h : CallOf b!"package" e) : mayPrecedePackage e = false := by
  obtain ⟨_, _, _, _, _, _, _, _, rfl⟩ := h
  rfl

theorem movePkg_after (pkg : Expr) (l : List Expr) : movePkgLoop pkg l none true = some l := by
  induction l with
  | nil => rfl
  | cons e l ih =>
    unfold movePkgLoop
    simp [ih]

theorem movePkg_inserted (pkg x : Expr) (hx : CallOf b!"package" x) (b : List Expr) : ∀ (a : List Expr),
    movePkgLoop pkg (a ++ x :: b) (some a.length) true = some (a ++ b) := by
  intro a
  induction a with
  | nil =>
    simp only [List.nil_append, List.length_nil]
    unfold movePkgLoop
    simp [not_mayPrecede_pkg hx, movePkg_after]
  | cons y a ih =>
    simp only [List.cons_append, List.length_cons]
    unfold movePkgLoop
    simp [ih]

theorem movePkg_start (pkg x : Expr) (hx : CallOf b!"package" x) (b : List Expr) : ∀ (a : List Expr),
    ((∀ e ∈ a, MayPrecede e) ∧ movePkgLoop pkg (a ++ x :: b) (some a.length) false = none) ∨
    ∃ h y t, a = h ++ y :: t ∧ (∀ e ∈ h, MayPrecede e) ∧ ¬ MayPrecede y ∧
      movePkgLoop pkg (a ++ x :: b) (some a.length) false = some (h ++ pkg :: y :: t ++ b) := by
  intro a
  induction a with
  | nil =>
    refine .inl ⟨(fun e he => nomatch he), ?_⟩
    simp only [List.nil_append, List.length_nil]
    unfold movePkgLoop
    simp [not_mayPrecede_pkg hx]
  | cons y a ih =>
    simp only [List.cons_append, List.length_cons]
    unfold movePkgLoop
    by_cases hy : mayPrecedePackage y = true
    · rw [if_pos hy]
      have e1 : (some (a.length + 1)).map (· - 1) = some a.length := by simp
      rw [e1]
      rcases ih with ⟨h1, h2⟩ | ⟨h, z, t, rfl, h1, h2, h3⟩
      · refine .inl ⟨?_, by rw [h2]; rfl⟩
        intro e he
        rcases List.mem_cons.mp he with rfl | he
        · exact (mayPrecede_iff _).mp hy
        · exact h1 e he
      · refine .inr ⟨y :: h, z, t, rfl, ?_, h2, by rw [h3]; rfl⟩
        intro e he
        rcases List.mem_cons.mp he with rfl | he
        · exact (mayPrecede_iff _).mp hy
        · exact h1 e he
    · refine .inr ⟨[], y, a, rfl, (fun e he => nomatch he), fun h => hy ((mayPrecede_iff _).mpr h), ?_⟩
      simp [hy, movePkg_inserted pkg x hx b a]

/-- **C59 (movePackageToTop).** The first package declaration moves up to the first statement that is no comment, string, assignment or
load; nothing else moves, and nothing moves if there is no such statement before it. -/
theorem C59_move_package (stmts : List Expr) :
    ((∀ e ∈ stmts, ¬ CallOf b!"package" e) ∧ movePackageToTop stmts = stmts) ∨
    ∃ h a pkg b, stmts = h ++ a ++ pkg :: b ∧ CallOf b!"package" pkg ∧ (∀ e ∈ h ++ a, ¬ CallOf b!"package" e) ∧
      (∀ e ∈ h, MayPrecede e) ∧ (∀ e, a.head? = some e → ¬ MayPrecede e) ∧ movePackageToTop stmts = h ++ pkg :: a ++ b := by
  rcases existing_spec stmts with ⟨h0, hn⟩ | ⟨a, x, b, hs, hx, ha, hi⟩
  · exact .inl ⟨hn, by simp only [movePackageToTop, h0]⟩
  · right
    have hg : stmts.getD a.length .nil = x := by rw [hs]; simp
    have hm : movePackageToTop stmts = (movePkgLoop x stmts (some a.length) false).getD stmts := by
      simp only [movePackageToTop, hi, hg]
    rcases movePkg_start x x hx b a with ⟨h1, h2⟩ | ⟨h, y, t, rfl, h1, h2, h3⟩
    · refine ⟨a, [], x, b, by simpa using hs, hx, by simpa using ha, h1, by simp, ?_⟩
      rw [hm, hs, h2]
      simp
    · refine ⟨h, y :: t, x, b, hs, hx, ha, h1, ?_, ?_⟩
      · intro e he
        simp only [List.head?_cons, Option.some.injEq] at he
        subst he; exact h2
      · rw [hm]
        conv => lhs; arg 1; rw [hs]
        rw [h3]
        simp

/-- **C59 (idempotence).** -/
theorem C59_move_package_idempotent (stmts : List Expr) : movePackageToTop (movePackageToTop stmts) = movePackageToTop stmts := by
  rcases C59_move_package stmts with ⟨_, h⟩ | ⟨h, a, pkg, b, hs, hp, hn, hh, ha, hr⟩
  · rw [h, h]
  · rw [hr]
    rcases C59_move_package (h ++ pkg :: a ++ b) with ⟨hnone, _⟩ | ⟨h', a', pkg', b', hs', hp', hn', hh', ha', hr'⟩
    · exact absurd hp (hnone pkg (by simp))
    · rw [hr']
      have hpre : h' ++ a' = h ∧ pkg' = pkg ∧ b' = a ++ b := by
        have hs'' : h ++ pkg :: (a ++ b) = (h' ++ a') ++ pkg' :: b' := by simpa using hs'
        have hn1 : ∀ e ∈ h, ¬ CallOf b!"package" e := fun e he => hn e (by simp [he])
        revert hs'' hn' hn1
        generalize h' ++ a' = u
        clear hs hn hh ha hr hs' hr' hh' ha'
        induction h generalizing u with
        | nil =>
          intro hn2 hs _
          cases u with
          | nil => simp at hs; exact ⟨rfl, hs.1.symm, hs.2.symm⟩
          | cons z u =>
            simp only [List.nil_append, List.cons_append, List.cons.injEq] at hs
            exact absurd (hs.1 ▸ hp) (hn2 z (by simp))
        | cons w h ih =>
          intro hn1 hs hn2
          cases u with
          | nil =>
            simp only [List.nil_append, List.cons_append, List.cons.injEq] at hs
            exact absurd (hs.1 ▸ hp') (hn2 w (by simp))
          | cons z u =>
            simp only [List.cons_append, List.cons.injEq] at hs
            obtain ⟨rfl, hs⟩ := hs
            obtain ⟨h1, h2, h3⟩ := ih u (fun e he => hn1 e (by simp [he])) hs (fun e he => hn2 e (by simp [he]))
            exact ⟨by rw [h1], h2, h3⟩
      obtain ⟨h1, rfl, rfl⟩ := hpre
      cases a' with
      | nil =>
        simp only [List.append_nil] at h1
        subst h1
        simp
      | cons z a' =>
        exact absurd (hh z (by rw [← h1]; simp)) (ha' z rfl)

/-- what the replacement of `x.extend(y)` and `x.append(y)` by `x += y` and `x += [y]` does -/
inductive PlusEqual : Expr → Expr → Prop
  | extend (c c' o dp np p x e a b) : PlusEqual (.call c (.dot c' (.ident o) dp np b!"extend") p [x] e a b)
      (.assign c (.ident o) {} b!"+=" false x)
  | append (c c' o dp np p x e a b) : PlusEqual (.call c (.dot c' (.ident o) dp np b!"append") p [x] e a b)
      (.assign c (.ident o) {} b!"+=" false (.list {} {} [x] {} false))

/-- **C59 (usePlusEqual).** A statement changes iff it is such a call, and then into the assignment, keeping the comments of the
call. -/
theorem C59_plus_equal (e : Expr) : PlusEqual e (plusEqual e) ∨ (plusEqual e = e ∧ ∀ e', ¬ PlusEqual e e') := by
  unfold plusEqual
  split
  · rename_i c c' o dp np n p x e a b
    split
    · rename_i h; subst h; exact .inl (.extend ..)
    · split
      · rename_i h; subst h; exact .inl (.append ..)
      · rename_i h1 h2
        refine .inr ⟨rfl, ?_⟩
        intro e' h
        cases h with
        | extend => exact h1 rfl
        | append => exact h2 rfl
  · rename_i hne
    refine .inr ⟨rfl, ?_⟩
    intro e' h
    cases h with
    | extend => exact hne _ _ _ _ _ _ _ _ _ _ _ rfl
    | append => exact hne _ _ _ _ _ _ _ _ _ _ _ rfl

/-! #### cases -/

def ident (n : Bytes) : Expr := .ident { name := n }
def named (f n : Bytes) : Expr := .call {} (ident f) {} [.assign {} (ident b!"name") {} b!"=" false (.string { value := n })] {} false false
def unnamed (f : Bytes) : Expr := .call {} (ident f) {} [] {} false false

/-- in the directory `d` the only unnamed rule is called `d` -/
example : deleteRuleByName (some b!"d") b!"d" [named b!"r" b!"x", unnamed b!"s"] = [named b!"r" b!"x"] := rfl
example : deleteRuleByName (some b!"d") b!"d" [named b!"r" b!"d", unnamed b!"s"] = [unnamed b!"s"] := rfl
example : (delRules none b!"r" b!"x" [named b!"r" b!"x", named b!"s" b!"x", named b!"r" b!"y"]) =
  ([named b!"s" b!"x", named b!"r" b!"y"], 1) := rfl
example : insertAtEnd [unnamed b!"a", .commentBlock {} {}] (unnamed b!"b") = some [unnamed b!"a", unnamed b!"b", .commentBlock {} {}] := rfl
example : insertAfterLastOfSameKind [unnamed b!"a", unnamed b!"b"] (unnamed b!"a") = some [unnamed b!"a", unnamed b!"a", unnamed b!"b"] := rfl
example : packageDeclaration [.string { value := b!"doc" }, unnamed b!"a"] = ([.string { value := b!"doc" }, unnamed b!"package", unnamed b!"a"], 1) := rfl
example : movePackageToTop [.string { value := b!"doc" }, unnamed b!"a", unnamed b!"package", unnamed b!"c"] =
  [.string { value := b!"doc" }, unnamed b!"package", unnamed b!"a", unnamed b!"c"] := rfl

/-- **C35 (finding).** `DelRules` overwrites the statements while it still computes implicit names from them: deleting the rule `d`
in the directory `d` also deletes an unnamed rule, which was not called `d` as long as the rule `d` existed. -/
theorem C35_delrules_witness :
    delRules (some b!"d") [] b!"d" [named b!"r" b!"d", ident b!"x", unnamed b!"s"] = ([ident b!"x"], 2) ∧
    implicitRuleName (some b!"d") [named b!"r" b!"d", ident b!"x", unnamed b!"s"] = [] := ⟨rfl, rfl⟩

end Verif.Props.Rules
