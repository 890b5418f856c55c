import Verif.Props.Rewriter
import Verif.Props.ReorderArgs
import Verif.Props.CallArgs
import Verif.Props.LabelRewrite
/-
C99: which lists buildifier sorts. What sorting and deduplicating one list means is the subject of C10 to C13.
-/
namespace Verif.Props.SortWhere
open Verif Verif.Syntax Verif.Walk Verif.Rewrite Verif.Props.Rewriter

/-! ### Specification -/

/-- a comment before, after or at the end of the line of the node contains the text, in any case -/
def Says (v : Expr) (text : Bytes) : Prop :=
  ∃ c ∈ v.comments.before ++ v.comments.after ++ v.comments.suffix, contains (toLower c.token) text = true

/-- The attribute `name` of rules of the kind `rule` holds a list whose order does not matter: its name says so, or the tables allow it for this kind of rule,
or the user does (unless `unsafesort` is disabled), and the tables do not forbid it. -/
def Sortable (w : Config) (rule name : Bytes) : Prop :=
  w.sortableDenylist (rule ++ b!"." ++ name) = false ∧
    (w.isSortableListArg name = true ∨ w.sortableAllowlist (rule ++ b!"." ++ name) = true ∨ b!"unsafesort" ∉ w.disableRewrites ∧ rule ++ b!"." ++ name ∈ w.allowSort)

/-- a list, a sum, or a `select` of a dictionary -/
def Composite : Expr → Prop
  | .list .. => True
  | .binary _ _ _ op _ _ => op = b!"+"
  | .call _ (.ident i) _ (.dict .. :: _) _ _ _ => i.name = b!"select"
  | _ => False

mutual
/-- The lists in a value are sorted: the value itself, the operands of sums and the values of the branches of a `select`. Everything else is kept. -/
inductive SortedIn (strip : Bool) : Expr → Expr → Prop
  | list (c p l e f) : SortedIn strip (.list c p l e f) (sortStringList strip (.list c p l e f))
  | sum (c x p lb y x' y') : SortedIn strip x x' → SortedIn strip y y' → SortedIn strip (.binary c x p b!"+" lb y) (.binary c x' p b!"+" lb y')
  | select (c i p dc dp l de df rest e a b l') : i.name = b!"select" → Branches strip l l' →
      SortedIn strip (.call c (.ident i) p (.dict dc dp l de df :: rest) e a b) (.call c (.ident i) p (.dict dc dp l' de df :: rest) e a b)
  | other (x) : ¬ Composite x → SortedIn strip x x
/-- the entries of the dictionary of a `select` -/
inductive Branches (strip : Bool) : List Expr → List Expr → Prop
  | nil : Branches strip [] []
  | entry (c k p v v' l l') : SortedIn strip v v' → Branches strip l l' → Branches strip (.keyValue c k p v :: l) (.keyValue c k p v' :: l')
  | other (x l l') : (∀ c k p v, x ≠ .keyValue c k p v) → Branches strip l l' → Branches strip (x :: l) (x :: l')
end

/-- What happens to one argument of a call of a rule in a BUILD, WORKSPACE or MODULE file. -/
inductive Arg (w : Config) (rule : Bytes) : Expr → Expr → Prop
  | positional (a) : (∀ c i p o lb r, a ≠ .assign c (.ident i) p o lb r) → Arg w rule a a
  | leftAlone (a) : LeftAlone a → Arg w rule a a
  | ordered (c i p o lb r) : ¬ Sortable w rule i.name → Arg w rule (.assign c (.ident i) p o lb r) (.assign c (.ident i) p o lb r)
  | doNotSort (c i p o lb r) : ¬ LeftAlone (.assign c (.ident i) p o lb r) → Sortable w rule i.name → Says (.assign c (.ident i) p o lb r) b!"do not sort" →
      Arg w rule (.assign c (.ident i) p o lb r) (.assign c (.ident i) p o lb (dedupStringList r))
  | sort (c i p o lb r r') : ¬ LeftAlone (.assign c (.ident i) p o lb r) → Sortable w rule i.name → ¬ Says (.assign c (.ident i) p o lb r) b!"do not sort" →
      SortedIn w.stripKey r r' → Arg w rule (.assign c (.ident i) p o lb r) (.assign c (.ident i) p o lb r')

/-- the arguments of a call -/
inductive Args (w : Config) (rule : Bytes) : List Expr → List Expr → Prop
  | nil : Args w rule [] []
  | cons (a a' l l') : Arg w rule a a' → Args w rule l l' → Args w rule (a :: l) (a' :: l')

/-- files in which calls are rules -/
def HasRules (t : FileType) : Prop := t = .build ∨ t = .workspace ∨ t = .module

/-- What happens to one node of a file of type `t` below the nodes `stk`. -/
inductive Node (w : Config) (t : FileType) (stk : List Expr) : Expr → Expr → Prop
  | rule (c x p l e a b l') : HasRules t → (∀ y ∈ stk ++ [.call c x p l e a b], ¬ LeftAlone y) → Args w (callKind x) l l' →
      Node w t stk (.call c x p l e a b) (.call c x p l' e a b)
  | call (c x p l e a b) : ¬ HasRules t ∨ (∃ y ∈ stk ++ [.call c x p l e a b], LeftAlone y) → Node w t stk (.call c x p l e a b) (.call c x p l e a b)
  | assign (c x p o lb r r') : b!"unsafesort" ∉ w.disableRewrites → Says (.assign c x p o lb r) b!"keep sorted" → SortedIn w.stripKey r r' →
      Node w t stk (.assign c x p o lb r) (.assign c x p o lb r')
  | keyValue (c k p r r') : b!"unsafesort" ∉ w.disableRewrites → Says (.keyValue c k p r) b!"keep sorted" → SortedIn w.stripKey r r' →
      Node w t stk (.keyValue c k p r) (.keyValue c k p r')
  | list (c p x l e f) : b!"unsafesort" ∉ w.disableRewrites → Says (.list c p (x :: l) e f) b!"keep sorted" ∨ Says x b!"keep sorted" →
      Node w t stk (.list c p (x :: l) e f) (sortStringList w.stripKey (.list c p (x :: l) e f))
  | other (v) : (∀ c x p l e a b, v ≠ .call c x p l e a b) → (b!"unsafesort" ∈ w.disableRewrites ∨ ¬ Says v b!"keep sorted" ∧ ∀ c p x l e f, v = .list c p (x :: l) e f → ¬ Says x b!"keep sorted") →
      Node w t stk v v
  | plain (v) : (∀ c x p l e a b, v ≠ .call c x p l e a b) → (∀ c x p o lb r, v ≠ .assign c x p o lb r) → (∀ c k p r, v ≠ .keyValue c k p r) →
      (∀ c p x l e f, v ≠ .list c p (x :: l) e f) → Node w t stk v v

/-! ### Proofs -/

theorem says_iff (v : Expr) (text : Bytes) : hasComment v text = true ↔ Says v text := by
  simp only [hasComment, Says, Bool.or_eq_true, List.any_eq_true, List.mem_append]
  constructor
  · rintro ((⟨c, h, k⟩ | ⟨c, h, k⟩) | ⟨c, h, k⟩)
    · exact ⟨c, .inl (.inl h), k⟩
    · exact ⟨c, .inl (.inr h), k⟩
    · exact ⟨c, .inr h, k⟩
  · rintro ⟨c, (h | h) | h, k⟩
    · exact .inl (.inl ⟨c, h, k⟩)
    · exact .inl (.inr ⟨c, h, k⟩)
    · exact .inr ⟨c, h, k⟩

theorem keep_iff (v : Expr) : keepSorted v = true ↔ Says v b!"keep sorted" := says_iff v _
theorem dont_iff (v : Expr) : doNotSort v = true ↔ Says v b!"do not sort" := says_iff v _

theorem disabled_iff (w : Config) (n : Bytes) : disabled w n = true ↔ n ∈ w.disableRewrites := any_beq _ _
theorem allowed_iff (w : Config) (n : Bytes) : allowedSort w n = true ↔ n ∈ w.allowSort := any_beq _ _

theorem sortStringList_other {strip : Bool} {x : Expr} (h : ∀ c p l e f, x ≠ .list c p l e f) : sortStringList strip x = x := by
  cases x <;> first | rfl | exact absurd rfl (h _ _ _ _ _)

theorem sortStringList_list (strip : Bool) (c p l e f) : ∃ l', sortStringList strip (.list c p l e f) = .list c p l' e f := by
  dsimp only [sortStringList]
  split
  · exact ⟨l, rfl⟩
  · split
    · exact ⟨_, rfl⟩
    · split
      · exact ⟨_, rfl⟩
      · exact ⟨_, rfl⟩

theorem branches_map (strip : Bool) (g : Expr → Expr) (l : List Expr) (h : ∀ c k p v, .keyValue c k p v ∈ l → SortedIn strip v (g v)) :
    Branches strip l (l.map fun kv => match kv with | .keyValue kc k kp v => .keyValue kc k kp (g v) | kv => kv) := by
  induction l with
  | nil => exact .nil
  | cons x l ih =>
    have ih' := ih (fun c k p v hv => h c k p v (List.mem_cons_of_mem _ hv))
    rw [List.map_cons]
    cases x <;> first
      | exact .entry _ _ _ _ _ _ _ (h _ _ _ _ List.mem_cons_self) ih'
      | exact .other _ _ _ (by intros; nofun) ih'

theorem sortedIn (strip : Bool) : ∀ (n : Nat) (x : Expr), size x ≤ n → SortedIn strip x (findAndModify (sortStringList strip) n x) := by
  intro n
  induction n with
  | zero => intro x hx; have := size_pos x; omega
  | succ n ih =>
    intro x hx
    rw [findAndModify]
    cases x with
    | list c p l e f =>
      obtain ⟨l', e'⟩ := sortStringList_list strip c p l e f
      have := SortedIn.list (strip := strip) c p l e f
      rw [e'] at this ⊢
      exact this
    | binary c x p op lb y =>
      rw [sortStringList_other (by intros; nofun)]
      dsimp only
      by_cases h : op = b!"+"
      · subst h
        rw [if_neg (by simp)]
        have h1 : size x < size (.binary c x p b!"+" lb y) := size_slot_lt (by simp [slots])
        have h2 : size y < size (.binary c x p b!"+" lb y) := size_slot_lt (by simp [slots])
        exact .sum _ _ _ _ _ _ _ (ih x (by omega)) (ih y (by omega))
      · rw [if_pos h]
        exact .other _ h
    | call c x p l e a b =>
      rw [sortStringList_other (by intros; nofun)]
      dsimp only
      split
      · rename_i i dc dp dl de df rest
        by_cases h : i.name = b!"select"
        · rw [if_neg (by simp [h])]
          refine .select _ _ _ _ _ _ _ _ _ _ _ _ _ h (branches_map strip _ dl fun kc k kp v hv => ih v ?_)
          have h1 : size v < size (.keyValue kc k kp v) := size_slot_lt (by simp [slots])
          have h2 : size (.keyValue kc k kp v) < size (.dict dc dp dl de df) := size_slot_lt (by simpa [slots] using hv)
          have h3 : size (.dict dc dp dl de df) < size (.call c (.ident i) p (.dict dc dp dl de df :: rest) e a b) := size_slot_lt (by simp [slots])
          omega
        · rw [if_pos h]
          exact .other _ h
      · rename_i hno
        refine .other _ ?_
        intro hc
        unfold Composite at hc
        split at hc
        · rename_i he; cases he
        · rename_i he; cases he
        · rename_i he; cases he; exact hno _ _ _ _ _ _ _ rfl rfl
        · exact hc
    | _ => exact .other _ (by simp [Composite])

theorem arg_ok (w : Config) (rule : Bytes) (a : Expr) : Arg w rule a (sortListArg w rule a) := by
  unfold sortListArg
  split
  · rename_i c i p o lb r
    split
    · rename_i h; exact .leftAlone _ ((leaveAlone1_iff _).1 h)
    · rename_i h
      have hl : ¬ LeftAlone (.assign c (.ident i) p o lb r) := fun k => h ((leaveAlone1_iff _).2 k)
      dsimp only
      by_cases hd : w.sortableDenylist (rule ++ b!"." ++ i.name) = true
      · rw [if_pos hd]
        exact .ordered _ _ _ _ _ _ (fun k => by rw [k.1] at hd; cases hd)
      · rw [if_neg hd]
        have hs : (w.isSortableListArg i.name || w.sortableAllowlist (rule ++ b!"." ++ i.name) || (!disabled w b!"unsafesort" && allowedSort w (rule ++ b!"." ++ i.name))) = true ↔
            Sortable w rule i.name := by
          simp only [Bool.or_eq_true, Bool.and_eq_true, Bool.not_eq_true', ← Bool.not_eq_true, disabled_iff, allowed_iff, Sortable, or_assoc]
          exact ⟨fun k => ⟨hd, k⟩, fun k => k.2⟩
        split
        · rename_i h1
          split
          · rename_i h2; exact .doNotSort _ _ _ _ _ _ hl (hs.1 h1) ((dont_iff _).1 h2)
          · rename_i h2; exact .sort _ _ _ _ _ _ _ hl (hs.1 h1) (fun k => h2 ((dont_iff _).2 k)) (sortedIn _ _ _ (Nat.le_refl _))
        · rename_i h1; exact .ordered _ _ _ _ _ _ (fun k => h1 (hs.2 k))
  · rename_i h; exact .positional _ (fun c i p o lb r e => h c i p o lb r e)

theorem args_ok (w : Config) (rule : Bytes) : ∀ l : List Expr, Args w rule l (l.map (sortListArg w rule))
  | [] => .nil
  | a :: l => .cons _ _ _ _ (arg_ok w rule a) (args_ok w rule l)

theorem node_ok (w : Config) (t : FileType) (v : Expr) (stk : List Expr) : Node w t stk v (sortListNode w t v stk) := by
  unfold sortListNode
  split
  · rename_i c x p l e a b
    split
    · rename_i h
      refine .call _ _ _ _ _ _ _ (.inl ?_)
      simp only [Bool.or_eq_true, decide_eq_true_eq] at h
      rcases h with rfl | rfl <;> (intro k; rcases k with k | k | k <;> cases k)
    · rename_i h
      split
      · rename_i h2; exact .call _ _ _ _ _ _ _ (.inr ((leaveAlone_iff _ _).1 h2))
      · rename_i h2
        refine .rule _ _ _ _ _ _ _ _ ?_ (fun y hy k => h2 ((leaveAlone_iff _ _).2 ⟨y, hy, k⟩)) (args_ok _ _ _)
        cases t <;> simp_all [HasRules]
  · rename_i c x p o lb r
    split
    · rename_i h; exact .other _ (by intros; nofun) (.inl ((disabled_iff _ _).1 h))
    · rename_i h
      split
      · rename_i h2; exact .assign _ _ _ _ _ _ _ (fun k => h ((disabled_iff _ _).2 k)) ((keep_iff _).1 h2) (sortedIn _ _ _ (Nat.le_refl _))
      · rename_i h2; exact .other _ (by intros; nofun) (.inr ⟨fun k => h2 ((keep_iff _).2 k), by intro _ _ _ _ _ _ he; cases he⟩)
  · rename_i c k p r
    split
    · rename_i h; exact .other _ (by intros; nofun) (.inl ((disabled_iff _ _).1 h))
    · rename_i h
      split
      · rename_i h2; exact .keyValue _ _ _ _ _ (fun k => h ((disabled_iff _ _).2 k)) ((keep_iff _).1 h2) (sortedIn _ _ _ (Nat.le_refl _))
      · rename_i h2; exact .other _ (by intros; nofun) (.inr ⟨fun k => h2 ((keep_iff _).2 k), by intro _ _ _ _ _ _ he; cases he⟩)
  · rename_i c p l e f
    split
    · rename_i h; exact .other _ (by intros; nofun) (.inl ((disabled_iff _ _).1 h))
    · rename_i h
      cases l with
      | nil => exact .plain _ (by intros; nofun) (by intros; nofun) (by intros; nofun) (by intros; nofun)
      | cons x l =>
        split
        · rename_i h2
          simp only [Bool.and_eq_true, Bool.or_eq_true, keep_iff, List.headD_cons] at h2
          have e1 : findAndModify (sortStringList w.stripKey) (size (.list c p (x :: l) e f)) (.list c p (x :: l) e f) = sortStringList w.stripKey (.list c p (x :: l) e f) := by
            obtain ⟨l', e'⟩ := sortStringList_list w.stripKey c p (x :: l) e f
            obtain ⟨n, hn⟩ : ∃ n, size (.list c p (x :: l) e f) = n + 1 := ⟨size (.list c p (x :: l) e f) - 1, by have := size_pos (.list c p (x :: l) e f); omega⟩
            rw [hn, findAndModify, e']
          rw [e1]
          exact .list _ _ _ _ _ _ (fun k => h ((disabled_iff _ _).2 k)) h2.2
        · rename_i h2
          simp only [List.length_cons, Nat.zero_lt_succ, decide_true, Bool.true_and, Bool.or_eq_true, keep_iff, List.headD_cons, not_or] at h2
          refine .other _ (by intros; nofun) (.inr ⟨h2.1, ?_⟩)
          intro c' p' x' l' e' f' he
          cases he; exact h2.2
  · rename_i h1 h2 h3 h4
    exact .plain _ h1 h2 h3 (fun c p x l e f he => h4 _ _ _ _ _ he)

/-! ### The theorems -/

mutual
theorem SortedIn.unique {strip : Bool} : ∀ {x a b : Expr}, SortedIn strip x a → SortedIn strip x b → a = b
  | _, _, _, .list .., .list .. => rfl
  | _, _, _, .list .., .other _ h => absurd trivial h
  | _, _, _, .sum _ _ _ _ _ _ _ h1 h2, .sum _ _ _ _ _ _ _ k1 k2 => by rw [h1.unique k1, h2.unique k2]
  | _, _, _, .sum .., .other _ h => absurd rfl h
  | _, _, _, .select _ _ _ _ _ _ _ _ _ _ _ _ _ _ h, .select _ _ _ _ _ _ _ _ _ _ _ _ _ _ k => by rw [h.unique k]
  | _, _, _, .select _ _ _ _ _ _ _ _ _ _ _ _ _ h _, .other _ k => absurd h k
  | _, _, _, .other _ h, .list .. => absurd trivial h
  | _, _, _, .other _ h, .sum .. => absurd rfl h
  | _, _, _, .other _ h, .select _ _ _ _ _ _ _ _ _ _ _ _ _ k _ => absurd k h
  | _, _, _, .other .., .other .. => rfl
theorem Branches.unique {strip : Bool} : ∀ {x a b : List Expr}, Branches strip x a → Branches strip x b → a = b
  | _, _, _, .nil, .nil => rfl
  | _, _, _, .entry _ _ _ _ _ _ _ h1 h2, .entry _ _ _ _ _ _ _ k1 k2 => by rw [h1.unique k1, h2.unique k2]
  | _, _, _, .entry .., .other _ _ _ h _ => absurd rfl (h _ _ _ _)
  | _, _, _, .other _ _ _ h _, .entry .. => absurd rfl (h _ _ _ _)
  | _, _, _, .other _ _ _ _ h, .other _ _ _ _ k => by rw [h.unique k]
end

theorem Arg.unique {w : Config} {rule : Bytes} {x a b : Expr} (h : Arg w rule x a) (k : Arg w rule x b) : a = b := by
  cases h <;> cases k <;> first
    | rfl
    | contradiction
    | (rename_i h; exact absurd rfl (h _ _ _ _ _ _))
    | (simp only [Expr.assign.injEq, true_and]; apply SortedIn.unique <;> assumption)

theorem Args.unique {w : Config} {rule : Bytes} {x a b : List Expr} (h : Args w rule x a) (k : Args w rule x b) : a = b := by
  induction h generalizing b with
  | nil => cases k; rfl
  | cons _ _ _ _ h1 _ ih => cases k with | cons _ _ _ _ k1 k2 => rw [h1.unique k1, ih k2]

theorem Node.unique {w : Config} {t : FileType} {stk : List Expr} {x a b : Expr} (h : Node w t stk x a) (k : Node w t stk x b) : a = b := by
  cases h with
  | rule c x p l e a b l' h1 h2 h3 =>
    cases k with
    | rule _ _ _ _ _ _ _ _ k1 k2 k3 => rw [h3.unique k3]
    | call _ _ _ _ _ _ _ k1 => rcases k1 with k1 | ⟨y, k1, k2⟩; exact absurd h1 k1; exact absurd k2 (h2 y k1)
    | other _ k1 => exact absurd rfl (k1 _ _ _ _ _ _ _)
    | plain _ k1 => exact absurd rfl (k1 _ _ _ _ _ _ _)
  | call c x p l e a b h1 =>
    cases k with
    | rule _ _ _ _ _ _ _ _ k1 k2 => rcases h1 with h1 | ⟨y, h1, h2⟩; exact absurd k1 h1; exact absurd h2 (k2 y h1)
    | _ => rfl
  | assign c x p o lb r r' h1 h2 h3 =>
    cases k with
    | assign _ _ _ _ _ _ _ _ _ k3 => rw [h3.unique k3]
    | other _ _ k => rcases k with k | k; exact absurd k h1; exact absurd h2 k.1
    | plain _ _ k => exact absurd rfl (k _ _ _ _ _ _)
  | keyValue c k p r r' h1 h2 h3 =>
    cases k with
    | keyValue _ _ _ _ _ _ _ k3 => rw [h3.unique k3]
    | other _ _ k => rcases k with k | k; exact absurd k h1; exact absurd h2 k.1
    | plain _ _ _ k => exact absurd rfl (k _ _ _ _)
  | list c p x l e f h1 h2 =>
    cases k with
    | list => rfl
    | other _ _ k =>
      rcases k with k | k
      · exact absurd k h1
      · rcases h2 with h2 | h2
        · exact absurd h2 k.1
        · exact absurd h2 (k.2 _ _ _ _ _ _ rfl)
    | plain _ _ _ _ k => exact absurd rfl (k _ _ _ _ _ _)
  | other _ h1 h2 =>
    cases k with
    | rule => exact absurd rfl (h1 _ _ _ _ _ _ _)
    | assign _ _ _ _ _ _ _ k1 k2 => rcases h2 with h2 | h2; exact absurd h2 k1; exact absurd k2 h2.1
    | keyValue _ _ _ _ _ k1 k2 => rcases h2 with h2 | h2; exact absurd h2 k1; exact absurd k2 h2.1
    | list _ _ _ _ _ _ k1 k2 =>
      rcases h2 with h2 | h2
      · exact absurd h2 k1
      · rcases k2 with k2 | k2
        · exact absurd k2 h2.1
        · exact absurd k2 (h2.2 _ _ _ _ _ _ rfl)
    | _ => rfl
  | plain _ h1 h2 h3 h4 =>
    cases k with
    | rule => exact absurd rfl (h1 _ _ _ _ _ _ _)
    | assign => exact absurd rfl (h2 _ _ _ _ _ _)
    | keyValue => exact absurd rfl (h3 _ _ _ _)
    | list => exact absurd rfl (h4 _ _ _ _ _ _)
    | _ => rfl

/-- **C99** What sorting string lists does to one node is what the specification says, and nothing else. -/
theorem C99_node (w : Config) (t : FileType) (stk : List Expr) (v v' : Expr) : sortListNode w t v stk = v' ↔ Node w t stk v v' :=
  ⟨fun h => h ▸ node_ok w t v stk, fun h => (node_ok w t v stk).unique h⟩

/-- Nothing at this node asks for sorting a list. -/
def Quiet (w : Config) (t : FileType) (v : Expr) : Prop :=
  (b!"unsafesort" ∈ w.disableRewrites ∨ ¬ Says v b!"keep sorted" ∧ ∀ c p x l e f, v = .list c p (x :: l) e f → ¬ Says x b!"keep sorted") ∧
    ∀ c x p l e a b, v = .call c x p l e a b → HasRules t → ∀ ac i ap o lb r, .assign ac (.ident i) ap o lb r ∈ l → ¬ Sortable w (callKind x) i.name

theorem quiet_args (w : Config) (rule : Bytes) : ∀ l : List Expr, (∀ ac i ap o lb r, .assign ac (.ident i) ap o lb r ∈ l → ¬ Sortable w rule i.name) → Args w rule l l
  | [], _ => .nil
  | a :: l, h => by
    refine .cons _ _ _ _ ?_ (quiet_args w rule l (fun _ _ _ _ _ _ hm => h _ _ _ _ _ _ (List.mem_cons_of_mem _ hm)))
    by_cases k : ∃ c i p o lb r, a = .assign c (.ident i) p o lb r
    · obtain ⟨c, i, p, o, lb, r, rfl⟩ := k
      exact .ordered _ _ _ _ _ _ (h _ _ _ _ _ _ List.mem_cons_self)
    · exact .positional _ (fun c i p o lb r e => k ⟨c, i, p, o, lb, r, e⟩)

theorem quiet_fix {w : Config} {t : FileType} {v : Expr} (stk : List Expr) (h : Quiet w t v) : sortListNode w t v stk = v := by
  rw [C99_node]
  by_cases k : ∃ c x p l e a b, v = .call c x p l e a b
  · obtain ⟨c, x, p, l, e, a, b, rfl⟩ := k
    by_cases hr : HasRules t
    · by_cases hl : ∃ y ∈ stk ++ [.call c x p l e a b], LeftAlone y
      · exact .call _ _ _ _ _ _ _ (.inr hl)
      · exact .rule _ _ _ _ _ _ _ _ hr (fun y hy k => hl ⟨y, hy, k⟩) (quiet_args w _ l (h.2 _ _ _ _ _ _ _ rfl hr))
    · exact .call _ _ _ _ _ _ _ (.inl hr)
  · exact .other _ (fun c x p l e a b he => k ⟨c, x, p, l, e, a, b, he⟩) h.1

/-- **C99** A file in which nothing asks for sorting is not changed. -/
theorem C99_untouched (w : Config) (f : File) (hok : treeOk f.toExpr) (h : All (Quiet w f.type) f.toExpr) : sortStringLists w f = f := by
  unfold sortStringLists onTree
  rw [walkMut_eq, mutN_fix _ (Quiet w f.type) (fun v stk hv => quiet_fix stk hv) _ _ _ hok h]
  cases f; rfl

/-- **C99** With `unsafesort` disabled no list of a `.bzl` file or of a file of unknown kind is sorted. -/
theorem C99_bzl (w : Config) (f : File) (hok : treeOk f.toExpr) (ht : f.type = .bzl ∨ f.type = .default) (hd : b!"unsafesort" ∈ w.disableRewrites) :
    sortStringLists w f = f := by
  refine C99_untouched w f hok ?_
  have key : ∀ v, Quiet w f.type v := fun v => ⟨.inl hd, fun _ _ _ _ _ _ _ _ hr => by
    rcases ht with ht | ht <;> rw [ht] at hr <;> rcases hr with hr | hr | hr <;> cases hr⟩
  intro n
  generalize f.toExpr = v
  induction n generalizing v with
  | zero => trivial
  | succ n ih => exact ⟨key v, fun x _ => ih x⟩

/-! ### The positional arguments of `use_repo` -/

/-- **C99** Only the arguments of `use_repo` calls are rearranged: those with at least three of them, without repetitions only if the call or one of the first two
arguments says `do not sort`. -/
theorem C99_use_repo (strip : Bool) (v : Expr) :
    (∃ c i p l e a b, v = .call c (.ident i) p l e a b ∧ i.name = b!"use_repo" ∧ 3 ≤ l.length ∧
      ((Says v b!"do not sort" ∨ ∃ x ∈ l.take 2, Says x b!"do not sort") ∧ sortUseRepo strip v = .call c (.ident i) p (dedupStringExprs l) e a b ∨
       (¬ Says v b!"do not sort" ∧ ∀ x ∈ l.take 2, ¬ Says x b!"do not sort") ∧ sortUseRepo strip v = .call c (.ident i) p (sortStringExprs strip l) e a b)) ∨
    ((∀ c i p l e a b, v = .call c (.ident i) p l e a b → i.name = b!"use_repo" → l.length < 3) ∧ sortUseRepo strip v = v) := by
  unfold sortUseRepo
  split
  · rename_i c i p l e a b
    by_cases h : i.name ≠ b!"use_repo" ∨ l.length < 3
    · right
      rw [if_pos (by simpa using h)]
      refine ⟨?_, rfl⟩
      intro c' i' p' l' e' a' b' he hn
      cases he
      exact h.resolve_left (fun k => k hn)
    · left
      rw [if_neg (by simpa using h)]
      simp only [not_or, Decidable.not_not, Nat.not_lt] at h
      refine ⟨_, _, _, _, _, _, _, rfl, h.1, h.2, ?_⟩
      match l, h.2 with
      | x :: y :: l, _ =>
        simp only [List.take_succ_cons, List.take_zero, List.mem_cons, List.not_mem_nil, or_false]
        by_cases h3 : (Says (.call c (.ident i) p (x :: y :: l) e a b) b!"do not sort" ∨ Says x b!"do not sort") ∨ Says y b!"do not sort"
        · left
          rw [if_pos (by simpa only [List.headD_cons, List.tail_cons, Bool.or_eq_true, dont_iff] using h3)]
          refine ⟨?_, rfl⟩
          rcases h3 with (h3 | h3) | h3
          · exact .inl h3
          · exact .inr ⟨x, .inl rfl, h3⟩
          · exact .inr ⟨y, .inr rfl, h3⟩
        · right
          rw [if_neg (by simpa only [List.headD_cons, List.tail_cons, Bool.or_eq_true, dont_iff] using h3)]
          refine ⟨⟨fun k => h3 (.inl (.inl k)), ?_⟩, rfl⟩
          rintro z (rfl | rfl) k
          · exact h3 (.inl (.inr k))
          · exact h3 (.inr k)
  · right
    rename_i h
    exact ⟨fun c i p l e a b he _ => absurd he (h c i p l e a b), rfl⟩

/-! ### Docstrings -/

/-- **C99** Only the docstring of a function is laid out anew: the first statement, if it is a triple-quoted string; the value of the string is that of its new text. -/
theorem C99_docstring (v : Expr) (stk : List Expr) :
    (∃ c p n ps s body q a d t, v = .defS c p n ps (.string s :: body) q a d t ∧ s.triple = true ∧
      ((formatString s.token (s.start.lineRune - 1) (4 * stk.length) = s.token ∧ formatDef v stk = v) ∨
       ∃ tok, tok = formatString s.token (s.start.lineRune - 1) (4 * stk.length) ∧ tok ≠ s.token ∧
        formatDef v stk = .defS c p n ps (.string { s with token := tok, value := (Quote.unquote tok).s } :: body) q a d t)) ∨
    ((∀ c p n ps s body q a d t, v = .defS c p n ps (.string s :: body) q a d t → s.triple = false) ∧ formatDef v stk = v) := by
  unfold formatDef
  split
  · rename_i c p n ps s body q a d t
    by_cases h : s.triple = true
    · left
      rw [if_pos h]
      refine ⟨_, _, _, _, _, _, _, _, _, _, rfl, h, ?_⟩
      unfold formatDoc
      dsimp only
      by_cases h2 : formatString s.token (s.start.lineRune - 1) (4 * stk.length) = s.token
      · left; rw [if_pos h2]; exact ⟨h2, rfl⟩
      · right; rw [if_neg h2]; exact ⟨_, rfl, h2, rfl⟩
    · right
      rw [if_neg h]
      refine ⟨?_, rfl⟩
      intro c' p' n' ps' s' body' q' a' d' t' he
      cases he
      simpa using h
  · right
    rename_i h
    exact ⟨fun c p n ps s body q a d t he => absurd he (h c p n ps s body q a d t), rfl⟩

/-! ### Arguments -/

/-- **C15** The arguments of every call are put in order: positional arguments, keyword arguments, `*args`, `**kwargs`; other nodes are kept. -/
theorem C15_node (v : Expr) (hok : ∀ x ∈ slots v, x.isNil = false) :
    (∃ c x p l e a b, v = .call c x p l e a b ∧
      reorderCall v = .call c x p (l.filter ReorderArgs.isPositional ++ l.filter ReorderArgs.isKeyword ++ l.filter ReorderArgs.isArgs ++ l.filter ReorderArgs.isKwargs) e a b) ∨
    ((∀ c x p l e a b, v ≠ .call c x p l e a b) ∧ reorderCall v = v) := by
  unfold reorderCall
  split
  · rename_i c x p l e a b
    exact .inl ⟨c, x, p, l, e, a, b, rfl, by rw [ReorderArgs.C15_reorder l (fun y hy => hok y (by simp [slots, hy]))]⟩
  · rename_i h
    exact .inr ⟨fun c x p l e a b he => h _ _ _ _ _ _ _ he, rfl⟩

/-! ### Cases in which the hypotheses hold and the comments matter -/

/-- strings -/
def str (c : Comments) (b : Bytes) : Expr := .string { comments := c, token := [34] ++ b ++ [34], value := b }
/-- `["b", "a"]` -/
def exList (c : Comments) (l : List Bytes) : Expr := .list {} {} (l.map (str c)) {} false
/-- `cc_library(srcs = …)` -/
def exRule (c : Comments) (r : Expr) : Expr := .call {} (.ident { name := b!"cc_library" }) {} [.assign c (.ident { name := b!"srcs" }) {} b!"=" false r] {} false false
/-- `srcs` is sortable -/
def conf : Config := { exConf with isSortableListArg := fun n => n == b!"srcs" }
/-- the user allows the attribute -/
def confAllow : Config := { exConf with allowSort := [b!"cc_library.srcs"] }
/-- a comment -/
def com (b : Bytes) : Comments := { before := [{ token := b }] }

example : Node conf .build [] (exRule {} (exList {} [b!"b", b!"a"])) (exRule {} (exList {} [b!"a", b!"b"])) := (C99_node ..).1 rfl
example : Node confAllow .build [] (exRule {} (exList {} [b!"b", b!"a"])) (exRule {} (exList {} [b!"a", b!"b"])) := (C99_node ..).1 rfl
example : Node conf .bzl [] (exRule {} (exList {} [b!"b", b!"a"])) (exRule {} (exList {} [b!"b", b!"a"])) := (C99_node ..).1 rfl
example : Node conf .build [] (exRule (com b!"# do not sort") (exList {} [b!"b", b!"a", b!"b"])) (exRule (com b!"# do not sort") (exList {} [b!"b", b!"a"])) := (C99_node ..).1 rfl
example : Node exConf .bzl [] (.assign (com b!"# keep sorted") (.ident { name := b!"x" }) {} b!"=" false (exList {} [b!"b", b!"a"]))
    (.assign (com b!"# keep sorted") (.ident { name := b!"x" }) {} b!"=" false (exList {} [b!"a", b!"b"])) := (C99_node ..).1 rfl
example : Node { exConf with disableRewrites := [b!"unsafesort"] } .bzl [] (.assign (com b!"# keep sorted") (.ident { name := b!"x" }) {} b!"=" false (exList {} [b!"b", b!"a"]))
    (.assign (com b!"# keep sorted") (.ident { name := b!"x" }) {} b!"=" false (exList {} [b!"b", b!"a"])) := (C99_node ..).1 rfl

theorem exFileOk (c : Comments) : treeOk (exFile c).toExpr :=
  (treeOk_iff _).mpr ⟨trivial, by intro x hx; rw [List.mem_singleton.mp hx]; exact exOk c⟩

/-- `f(b = 1, a = 2)` is quiet if no name is sortable -/
example : sortStringLists exConf (exFile {}) = exFile {} := by
  refine C99_untouched exConf (exFile {}) (exFileOk {}) ?_
  have q : ∀ v, keepSorted v = false → (∀ c p x l e f, v ≠ .list c p (x :: l) e f) → Quiet exConf .build v := fun v h1 h2 =>
    ⟨.inr ⟨fun k => (by rw [(keep_iff v).2 k] at h1; cases h1), fun c p x l e f he => absurd he (h2 c p x l e f)⟩,
      by
        intro _ _ _ _ _ _ _ _ _ _ _ _ _ _ _ _ hs
        rcases hs.2 with h | h | h
        · cases h
        · cases h
        · cases h.2⟩
  have lit : ∀ t, All (Quiet exConf .build) (.literal {} {} t) := fun t => (All_iff _ _).2 ⟨q _ rfl (by intros; nofun), nofun⟩
  have idn : ∀ n, All (Quiet exConf .build) (.ident { name := n }) := fun n => (All_iff _ _).2 ⟨q _ rfl (by intros; nofun), nofun⟩
  have arg : ∀ n t, All (Quiet exConf .build) (.assign {} (.ident { name := n }) {} b!"=" false (.literal {} {} t)) := fun n t =>
    (All_iff _ _).2 ⟨q _ rfl (by intros; nofun), by
      intro x hx
      rcases List.mem_cons.mp hx with rfl | hx
      · exact idn _
      · rw [List.mem_singleton.mp hx]; exact lit _⟩
  refine (All_iff _ _).2 ⟨q _ rfl (by intros; nofun), fun x hx => ?_⟩
  rw [List.mem_singleton.mp hx]
  refine (All_iff _ _).2 ⟨q _ rfl (by intros; nofun), fun x hx => ?_⟩
  rcases List.mem_cons.mp hx with rfl | hx
  · exact idn _
  rcases List.mem_cons.mp hx with rfl | hx
  · exact arg _ _
  · rw [List.mem_singleton.mp hx]; exact arg _ _

example : sortStringLists { exConf with disableRewrites := [b!"unsafesort"] } { exFile {} with type := .bzl } = { exFile {} with type := .bzl } :=
  C99_bzl _ _ (exFileOk {}) (.inl rfl) (List.mem_singleton.2 rfl)

example : ∀ x ∈ slots (exCall {}), x.isNil = false := by simp [slots, exCall, Expr.isNil]

/-- `use_repo(e, "b", "a")` -/
def exUse (c : Comments) (l : List Bytes) : Expr := .call c (.ident { name := b!"use_repo" }) {} (.ident { name := b!"e" } :: l.map (str {})) {} false false
example : sortUseRepo false (exUse {} [b!"b", b!"a"]) = exUse {} [b!"a", b!"b"] := rfl
example : sortUseRepo false (exUse (com b!"# do not sort") [b!"b", b!"a"]) = exUse (com b!"# do not sort") [b!"b", b!"a"] := rfl

/-! ### Where arguments are sorted -/

/-- the kind of rule a call sorts its arguments for -/
def KindOfCall (x : Expr) (rule : Bytes) : Prop :=
  (LabelRewrite.Dotted x rule ∧ rule ≠ []) ∨ ((∀ s, LabelRewrite.Dotted x s → s = []) ∧ rule = b!"<complex rule kind>")

theorem dotted_unique {x : Expr} {s t : Bytes} (hs : LabelRewrite.Dotted x s) (ht : LabelRewrite.Dotted x t) : s = t := by
  induction hs generalizing t with
  | ident i => cases ht; rfl
  | dot c x p q n s _ ih => cases ht with | dot _ _ _ _ _ s' h' => rw [ih h']

/-- **C14**: the arguments of a call that is not to be left alone are sorted, for the kind of its function: its dotted name, or a fixed name that no rule has
if the function is not a name. Everything else is kept, and so are all other nodes. -/
theorem C14_node (w : Config) (v : Expr) (stk : List Expr) :
    (∃ c x p l e a b rule pre tail tail', v = .call c x p l e a b ∧ (∀ y ∈ stk ++ [v], ¬ LeftAlone y) ∧ KindOfCall x rule ∧ l = pre ++ tail ∧
      CallArgs.SortedCall w.namePriority rule pre tail tail' ∧ sortCall w v stk = .call c x p (pre ++ tail') e a b) ∨
    (((∃ y ∈ stk ++ [v], LeftAlone y) ∨ ∀ c x p l e a b, v ≠ .call c x p l e a b) ∧ sortCall w v stk = v) := by
  unfold sortCall
  split
  · rename_i c x p l e a b
    split
    · rename_i h; exact .inr ⟨.inl ((leaveAlone_iff _ _).1 h), rfl⟩
    · rename_i h
      obtain ⟨pre, tail, tail', h1, h2, h3⟩ := CallArgs.C14_sorts_trailing_keywords (sortBy_sorts CallArgs.argLess_strictWeak) w.namePriority
        (if callKind x = [] then b!"<complex rule kind>" else callKind x) l
      refine .inl ⟨c, x, p, l, e, a, b, _, pre, tail, tail', rfl, fun y hy hl => h ((leaveAlone_iff _ _).2 ⟨y, hy, hl⟩), ?_, h1, h3, ?_⟩
      · rcases LabelRewrite.kind_iff x with hk | ⟨hk, h0⟩
        · by_cases hn : callKind x = []
          · rw [if_pos hn]
            exact .inr ⟨fun s hs => (dotted_unique hs hk).trans hn, rfl⟩
          · rw [if_neg hn]; exact .inl ⟨hk, hn⟩
        · rw [if_pos h0]; exact .inr ⟨fun s hs => absurd hs (hk s), rfl⟩
      · rw [← h2]; rfl
  · rename_i h
    exact .inr ⟨.inr h, rfl⟩

/-- `name` goes first in calls of `r` only -/
def exPrio : Config := { exConf with namePriority := fun s => if s = b!"r.name" then some (-99) else none }
def exArgs (f : Expr) (l : List Bytes) : Expr := .call {} f {} (l.map fun n => CallArgs.kw n b!"v") {} false false
example : sortCall exPrio (exArgs (.ident { name := b!"r" }) [b!"b", b!"name", b!"a"]) [] = exArgs (.ident { name := b!"r" }) [b!"name", b!"a", b!"b"] := rfl
example : sortCall exPrio (exArgs (.ident { name := b!"s" }) [b!"b", b!"name", b!"a"]) [] = exArgs (.ident { name := b!"s" }) [b!"a", b!"b", b!"name"] := rfl
/-- the function of `r()(…)` has no name -/
example : KindOfCall (exArgs (.ident { name := b!"r" }) []) b!"<complex rule kind>" := .inr ⟨fun _ h => (by cases h), rfl⟩

end Verif.Props.SortWhere
