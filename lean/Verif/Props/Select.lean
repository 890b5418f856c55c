import Verif.Props.ListEdit
import Verif.Props.Attr
/-
C33: simplification of selects keeps the value under every configuration. Also the attribute-level form of C31.
-/
namespace Verif.Props.Select
open Verif Verif.Syntax Verif.Edit Verif.Walk Verif.Props.ListEdit

/-! ### C31 on attributes -/

/-- **C31 (attributes).** Deleting from an attribute edits its value; if something was deleted and the value is now an empty
list, the definition is removed; other attributes are not affected. -/
theorem C31_attribute (dwc : Bool) (name item pkg : Bytes) (args : List Expr) (h : (attr name args).isNil = false) :
    (listAttributeDelete dwc name item pkg args).2 = (listDelete dwc item pkg (attr name args)).2 ∧
    (((listDelete dwc item pkg (attr name args)).2 ≠ none ∧ (∃ c p t m, (listDelete dwc item pkg (attr name args)).1 = .list c p [] t m) →
      (listAttributeDelete dwc name item pkg args).1 = (delAttr name args).1) ∧
     (¬ ((listDelete dwc item pkg (attr name args)).2 ≠ none ∧ (∃ c p t m, (listDelete dwc item pkg (attr name args)).1 = .list c p [] t m)) →
      (listAttributeDelete dwc name item pkg args).1 = setAttr name (listDelete dwc item pkg (attr name args)).1 args)) := by
  have hdel : ∀ v, (delAttr name (setAttr name v args)).1 = (delAttr name args).1 := by
    intro v
    rcases Attr.exists_first name args with hn | ⟨pre, d, post, hf⟩
    · rw [(Attr.C27_get args name).2 hn] at h; cases h
    · rw [(Attr.C27_set args name v).1 _ _ _ hf, (Attr.C27_delete args name).1 _ _ _ hf]
      rw [(Attr.C27_delete _ name).1 pre (Attr.withValue v d) post ⟨rfl, (Attr.defines_withValue v hf.2.1).mpr hf.2.1, hf.2.2⟩]
  unfold listAttributeDelete
  simp only [h, Bool.false_eq_true, if_false]
  generalize listDelete dwc item pkg (attr name args) = r
  obtain ⟨e, d⟩ := r
  split
  · rename_i hd he
    simp only at hd he
    subst hd he
    refine ⟨rfl, fun _ => hdel _, fun hc => absurd ⟨by simp, _, _, _, _, rfl⟩ hc⟩
  · rename_i hne
    refine ⟨rfl, fun hc => ?_, fun _ => rfl⟩
    obtain ⟨hd, c, p, t, m, he⟩ := hc
    cases d with
    | none => exact absurd rfl hd
    | some s => exact absurd he (hne s c p t m rfl)

/-! ### Specification: the value of a list expression -/

/-- A configuration: which branch of a select is chosen, given its keys (`none`: no condition matches, an error), and the values
of everything that is neither a list, nor a concatenation, nor a select (`none`: not a list, or an error). -/
structure World where
  choose : List Expr → Option Nat
  opaque_ : Expr → Option (List Expr)

def keyOf : Expr → Expr
  | .keyValue _ k _ _ => k
  | _ => .nil

def valOf : Expr → Expr
  | .keyValue _ _ _ v => v
  | _ => .nil

/-- `select()` without arguments -/
def IsEmptySelect (e : Expr) : Prop := ∃ c ci pi p t a b, e = .call c (.ident ⟨ci, pi, b!"select"⟩) p [] t a b

/-- `Eval w e v`: under the configuration `w`, the expression `e` evaluates to the list of elements `v`. -/
inductive Eval (w : World) : Expr → List Expr → Prop
  | list {c p l t m} : Eval w (.list c p l t m) l
  | plus {c x p lb y a b} : Eval w x a → Eval w y b → Eval w (.binary c x p b!"+" lb y) (a ++ b)
  | select {c ci pi p c' p' kvs t m rest t' a b i kv v} : w.choose (kvs.map keyOf) = some i → kvs[i]? = some kv →
      Eval w (valOf kv) v →
      Eval w (.call c (.ident ⟨ci, pi, b!"select"⟩) p (.dict c' p' kvs t m :: rest) t' a b) v
  | other {e v} : (∀ c p l t m, e ≠ .list c p l t m) → (∀ c x p lb y, e ≠ .binary c x p b!"+" lb y) → ¬ IsSelect e →
      ¬ IsEmptySelect e → w.opaque_ e = some v → Eval w e v

/-- evaluation is a function of the configuration -/
theorem eval_unique (w : World) {e : Expr} {v : List Expr} (h : Eval w e v) : ∀ v', Eval w e v' → v' = v := by
  induction h with
  | list =>
    intro v' h'
    cases h' with
    | list => rfl
    | other h1 => exact absurd rfl (h1 _ _ _ _ _)
  | plus _ _ ih1 ih2 =>
    intro v' h'
    cases h' with
    | plus h1 h2 => rw [ih1 _ h1, ih2 _ h2]
    | other _ h2 => exact absurd rfl (h2 _ _ _ _ _)
  | select h1 h2 _ ih =>
    intro v' h'
    cases h' with
    | select g1 g2 g3 =>
      rw [h1] at g1; cases g1
      rw [h2] at g2; cases g2
      exact ih _ g3
    | other _ _ h3 => exact absurd ⟨_, _, _, _, _, _, _, _, _, _, _, _, _, rfl⟩ h3
  | other h1 h2 h3 h4 h5 =>
    intro v' h'
    cases h' with
    | list => exact absurd rfl (h1 _ _ _ _ _)
    | plus => exact absurd rfl (h2 _ _ _ _ _)
    | select => exact absurd ⟨_, _, _, _, _, _, _, _, _, _, _, _, _, rfl⟩ h3
    | other _ _ _ _ g => rw [h5] at g; cases g; rfl

theorem emptyEntry_val {kv : Expr} (h : emptyEntry kv = true) : ∃ c p t m, valOf kv = .list c p [] t m := by
  unfold emptyEntry at h
  split at h
  · exact ⟨_, _, _, _, rfl⟩
  · cases h

/-- **C33 (simplification).** Whatever list an expression evaluates to, under whatever configuration, the simplified
expression evaluates to the same list. -/
theorem C33_simplify (w : World) {e : Expr} {v : List Expr} (h : Eval w e v) : Eval w (simplifyLists e) v := by
  induction h with
  | list => exact .list
  | @plus c x p lb y a b hx hy ih1 ih2 =>
    have key : ∀ x' y', Eval w x' a → Eval w y' b →
        Eval w (match x', y' with
          | .list _ _ l _ _, .list _ _ k _ _ => .list {} {} (l ++ k) {} false
          | .list _ _ [] _ _, y' => y'
          | x', .list _ _ [] _ _ => x'
          | x', y' => .binary c x' p b!"+" lb y') (a ++ b) := by
      intro x' y' hx' hy'
      split
      · have e1 := eval_unique w hx' _ .list
        have e2 := eval_unique w hy' _ .list
        rw [← e1, ← e2]; exact .list
      · have e1 := eval_unique w hx' _ .list
        rw [← e1]; exact hy'
      · have e2 := eval_unique w hy' _ .list
        rw [← e2, List.append_nil]; exact hx'
      · exact .plus hx' hy'
    have := key _ _ ih1 ih2
    simp only [simplifyLists, if_true]
    exact this
  | @select c ci pi p c' p' kvs t m rest t' a b i kv v h1 h2 h3 ih =>
    simp only [simplifyLists, if_true]
    split
    · rename_i hall
      obtain ⟨_, _, _, _, e⟩ := emptyEntry_val (List.all_eq_true.mp hall kv (List.mem_of_getElem? h2))
      rw [e] at h3
      rw [eval_unique w .list _ h3]
      exact .list
    · exact .select h1 h2 h3
  | other h1 h2 h3 h4 h5 =>
    rename_i e v
    have : simplifyLists e = e := by
      unfold simplifyLists
      split
      · split
        · rename_i ho; subst ho; exact absurd rfl (h2 _ _ _ _ _)
        · rfl
      · rename_i c i p l t a b
        obtain ⟨ci, pi, n⟩ := i
        split
        · rename_i hs
          simp only at hs; subst hs
          split
          · exact absurd ⟨_, _, _, _, _, _, _, rfl⟩ h4
          · exact absurd ⟨_, _, _, _, _, _, _, _, _, _, _, _, _, rfl⟩ h3
          · rfl
        · rfl
      · rfl
    rw [this]
    exact .other h1 h2 h3 h4 h5

/-! ### Pulling common elements out of selects -/

/-- the same element: identical, or strings with the same label -/
def Same (pkg : Bytes) (x y : Expr) : Prop :=
  x = y ∨ ∃ s s', x = .string s ∧ y = .string s' ∧ Labels.equal s.value s'.value pkg = true

/-- the two lists have the same elements, up to spelling of labels and repetition -/
def SameSet (pkg : Bytes) (a b : List Expr) : Prop :=
  (∀ x ∈ a, ∃ y ∈ b, Same pkg x y) ∧ (∀ y ∈ b, ∃ x ∈ a, Same pkg x y)

theorem equal_symm {a b pkg : Bytes} (h : Labels.equal a b pkg = true) : Labels.equal b a pkg = true := by
  simp only [Labels.equal, decide_eq_true_eq] at *; exact h.symm

theorem equal_trans {a b c pkg : Bytes} (h : Labels.equal a b pkg = true) (h' : Labels.equal b c pkg = true) :
    Labels.equal a c pkg = true := by
  simp only [Labels.equal, decide_eq_true_eq] at *; exact h.trans h'

theorem same_symm {pkg x y} (h : Same pkg x y) : Same pkg y x := by
  rcases h with rfl | ⟨s, s', h1, h2, h3⟩
  · exact .inl rfl
  · exact .inr ⟨s', s, h2, h1, equal_symm h3⟩

theorem same_trans {pkg x y z} (h : Same pkg x y) (h' : Same pkg y z) : Same pkg x z := by
  rcases h with rfl | ⟨s, s', h1, h2, h3⟩
  · exact h'
  · rcases h' with rfl | ⟨t, t', g1, g2, g3⟩
    · exact .inr ⟨s, s', h1, h2, h3⟩
    · rw [h2] at g1; cases g1
      exact .inr ⟨s, t', h1, g2, equal_trans h3 g3⟩

theorem sameSet_refl (pkg : Bytes) (a : List Expr) : SameSet pkg a a := ⟨fun x h => ⟨x, h, .inl rfl⟩, fun x h => ⟨x, h, .inl rfl⟩⟩

theorem sameSet_trans {pkg a b c} (h : SameSet pkg a b) (h' : SameSet pkg b c) : SameSet pkg a c := by
  constructor
  · intro x hx
    obtain ⟨y, hy, s⟩ := h.1 x hx
    obtain ⟨z, hz, s'⟩ := h'.1 y hy
    exact ⟨z, hz, same_trans s s'⟩
  · intro z hz
    obtain ⟨y, hy, s⟩ := h'.2 z hz
    obtain ⟨x, hx, s'⟩ := h.2 y hy
    exact ⟨x, hx, same_trans s' s⟩

/-- evaluation after deleting from selects -/
theorem eval_selectDelete (w : World) (dwc : Bool) (item pkg : Bytes) {e e' : Expr}
    (he : ListsEdit (fun l l' => l' = l) (fun l l' => ∀ x, x ∈ l' ↔ x ∈ l ∧ ¬ Removed dwc item pkg x) e e') :
    ∀ v, Eval w e v → ∃ v', Eval w e' v' ∧ (∀ x, x ∈ v' → x ∈ v) ∧ (∀ x, x ∈ v → x ∈ v' ∨ Removed dwc item pkg x) := by
  induction he with
  | list h =>
    intro v hv
    subst h
    exact ⟨v, hv, fun _ h => h, fun _ h => .inl h⟩
  | plus _ _ ih1 ih2 =>
    intro v hv
    cases hv with
    | plus h1 h2 =>
      obtain ⟨a', ha, a1, a2⟩ := ih1 _ h1
      obtain ⟨b', hb, b1, b2⟩ := ih2 _ h2
      refine ⟨a' ++ b', .plus ha hb, ?_, ?_⟩
      · intro x hx
        rcases List.mem_append.mp hx with h | h
        · exact List.mem_append.mpr (.inl (a1 x h))
        · exact List.mem_append.mpr (.inr (b1 x h))
      · intro x hx
        rcases List.mem_append.mp hx with h | h
        · exact (a2 x h).imp (fun h => List.mem_append.mpr (.inl h)) id
        · exact (b2 x h).imp (fun h => List.mem_append.mpr (.inr h)) id
    | other _ h2 => exact absurd rfl (h2 _ _ _ _ _)
  | @select c ci pi p c' p' kvs kvs' t m rest t' a b hk =>
    intro v hv
    cases hv with
    | @select _ _ _ _ _ _ _ _ _ _ _ _ _ i kv _ h1 h2 h3 =>
      have hkeys : ∀ {kvs kvs' : List Expr}, Forall2 (EntryEdit (fun l l' => ∀ x, x ∈ l' ↔ x ∈ l ∧ ¬ Removed dwc item pkg x)) kvs kvs' →
          kvs'.map keyOf = kvs.map keyOf ∧ ∀ (i : Nat) (kv : Expr), kvs[i]? = some kv → ∃ kv', kvs'[i]? = some kv' ∧
            EntryEdit (fun l l' => ∀ x, x ∈ l' ↔ x ∈ l ∧ ¬ Removed dwc item pkg x) kv kv' := by
        intro kvs kvs' h
        induction h with
        | nil => exact ⟨rfl, fun i kv h => by simp at h⟩
        | cons h _ ih =>
          constructor
          · rw [List.map_cons, List.map_cons, ih.1]
            congr 1
            cases h <;> rfl
          · intro i kv hi
            cases i with
            | zero => simp at hi; subst hi; exact ⟨_, rfl, h⟩
            | succ i => exact ih.2 i kv (by simpa using hi)
      obtain ⟨hk1, hk2⟩ := hkeys hk
      obtain ⟨kv', h2', hed⟩ := hk2 i kv h2
      rw [← hk1] at h1
      cases hed with
      | list r =>
        have := eval_unique w .list _ h3
        subst this
        exact ⟨_, .select h1 h2' .list, fun x hx => ((r x).mp hx).1, fun x hx => by
          by_cases hr : Removed dwc item pkg x
          · exact .inr hr
          · exact .inl ((r x).mpr ⟨hx, hr⟩)⟩
      | other => exact ⟨v, .select h1 h2' h3, fun _ h => h, fun _ h => .inl h⟩
    | other _ _ h3 => exact absurd ⟨_, _, _, _, _, _, _, _, _, _, _, _, _, rfl⟩ h3
  | other => intro v hv; exact ⟨v, hv, fun _ h => h, fun _ h => .inl h⟩

theorem eval_firstEdit (w : World) {f : List Expr → List Expr} {item : Expr} (hf : ∀ l x, x ∈ f l ↔ x = item ∨ x ∈ l) {e e' : Expr}
    (h : FirstListEdit f e e') : ∀ v, Eval w e v → ∃ v', Eval w e' v' ∧ ∀ x, x ∈ v' ↔ x = item ∨ x ∈ v := by
  induction h with
  | list =>
    intro v hv
    have := eval_unique w .list _ hv
    subst this
    exact ⟨_, .list, hf _⟩
  | left _ ih =>
    intro v hv
    cases hv with
    | plus h1 h2 =>
      obtain ⟨a', ha, a1⟩ := ih _ h1
      refine ⟨_, .plus ha h2, fun x => ?_⟩
      rw [List.mem_append, List.mem_append, a1]; exact or_assoc
    | other _ h2 => exact absurd rfl (h2 _ _ _ _ _)
  | right _ _ ih =>
    intro v hv
    cases hv with
    | plus h1 h2 =>
      obtain ⟨b', hb, b1⟩ := ih _ h2
      refine ⟨_, .plus h1 hb, fun x => ?_⟩
      rw [List.mem_append, List.mem_append, b1]; exact or_left_comm
    | other _ h2 => exact absurd rfl (h2 _ _ _ _ _)

theorem eval_addTo (w : World) (item : Expr) (sorted : Bool) (e : Expr) (v : List Expr) (hv : Eval w e v) :
    ∃ v', Eval w (addTo item sorted e) v' ∧ ∀ x, x ∈ v' ↔ x = item ∨ x ∈ v := by
  rcases addTo_spec item sorted e with h | ⟨_, h⟩
  · exact eval_firstEdit w (mem_put sorted item) h v hv
  · rw [h]
    exact ⟨_, .plus hv .list, fun x => by simp [or_comm]⟩

theorem not_eval_nil (w : World) (ho : w.opaque_ .nil = none) (v : List Expr) : ¬ Eval w .nil v := by
  intro h
  cases h with
  | other _ _ _ _ h => rw [ho] at h; cases h

/-- **C33 (one value).** Adding a value that is in the result anyway does not change what the expression evaluates to, up to
order, repetition and spelling. -/
theorem C33_add_present (w : World) (ho : w.opaque_ .nil = none) (dwc : Bool) (e : Expr) (pkg : Bytes) (item : Expr) (sorted : Bool)
    (v : List Expr) (hv : Eval w e v) (hi : ∃ y ∈ v, Same pkg item y) :
    ∃ v', Eval w (addValueToList dwc e pkg item sorted) v' ∧ SameSet pkg v v' := by
  obtain ⟨y, hy, hsame⟩ := hi
  have hn : e.isNil = false := by
    cases h : e.isNil with
    | false => rfl
    | true =>
      have : e = .nil := by cases e <;> simp_all [Expr.isNil]
      subst this
      exact absurd hv (not_eval_nil w ho v)
  have hadd : ∀ e1 v1, Eval w e1 v1 → (∀ x, x ∈ v1 → x ∈ v) → (∀ x, x ∈ v → x ∈ v1 ∨ Same pkg item x) →
      ∃ v', Eval w (addTo item sorted e1) v' ∧ SameSet pkg v v' := by
    intro e1 v1 h1 h2 h3
    obtain ⟨v', hv', hm⟩ := eval_addTo w item sorted e1 v1 h1
    refine ⟨v', hv', ?_, ?_⟩
    · intro x hx
      rcases h3 x hx with h | h
      · exact ⟨x, (hm x).mpr (.inr h), .inl rfl⟩
      · exact ⟨item, (hm item).mpr (.inl rfl), same_symm h⟩
    · intro x hx
      rcases (hm x).mp hx with rfl | h
      · exact ⟨y, hy, same_symm hsame⟩
      · exact ⟨x, h2 x h, .inl rfl⟩
  unfold addValueToList
  simp only [hn, Bool.false_eq_true, if_false]
  split
  · rename_i s
    split
    · exact ⟨v, hv, sameSet_refl _ _⟩
    · obtain ⟨v1, h1, h2, h3⟩ := eval_selectDelete w dwc s.value pkg
        ((selectDelete_edit dwc s.value pkg e).imp (fun _ _ h => h) (fun l l' h x => by rw [h, List.mem_filter]; simp)) v hv
      refine hadd _ v1 h1 h2 (fun x hx => ?_)
      rcases h3 x hx with h | ⟨s', hx', hq, _⟩
      · exact .inl h
      · exact .inr (.inr ⟨s, s', rfl, hx', equal_symm hq⟩)
  · exact hadd e v hv (fun _ h => h) (fun _ h => .inl h)

/-! #### the intersection is common to all branches -/

theorem findValue_true {value : Bytes} {l : List Expr} (h : findValue value l = some true) : ∃ s, Expr.string s ∈ l ∧ s.value = value := by
  induction l with
  | nil => cases h
  | cons x l ih =>
    unfold findValue at h
    split at h
    · rename_i e; cases e
    · rename_i s l' e
      cases e
      split at h
      · rename_i hs; exact ⟨s, by simp, hs⟩
      · obtain ⟨s', h1, h2⟩ := ih h; exact ⟨s', by simp [h1], h2⟩
    · cases h

theorem intersect_mem {list2 l r : List Expr} (h : intersect list2 l = some r) :
    ∀ x ∈ r, x ∈ l ∧ ∃ s s', x = .string s ∧ Expr.string s' ∈ list2 ∧ s'.value = s.value := by
  induction l generalizing r with
  | nil => cases h; simp
  | cons x l ih =>
    unfold intersect at h
    split at h
    · rename_i e; cases e
    · rename_i s l' e
      cases e
      split at h
      · rename_i r' h1 h2
        have h := Option.some.inj h
        subst h
        intro y hy
        rcases List.mem_cons.mp hy with rfl | hy
        · obtain ⟨s', hs', hv⟩ := findValue_true h1
          exact ⟨by simp, s, s', rfl, hs', hv⟩
        · obtain ⟨a, b⟩ := ih h2 y hy; exact ⟨by simp [a], b⟩
      · rename_i r' h1 h2
        have h := Option.some.inj h
        subst h
        intro y hy
        obtain ⟨a, b⟩ := ih h2 y hy; exact ⟨by simp [a], b⟩
      · cases h
    · cases h

/-- every entry's list contains the element -/
def Common (pkg : Bytes) (kvs : List Expr) (x : Expr) : Prop :=
  ∀ kv ∈ kvs, ∃ l, EntryList kv l ∧ ∃ y ∈ l, Same pkg x y

theorem intersectEntries_common (pkg : Bytes) (kvs : List Expr) : ∀ acc r, intersectEntries kvs (some acc) = some r →
    ∀ x ∈ r, x ∈ acc ∧ Common pkg kvs x := by
  induction kvs with
  | nil =>
    intro acc r h x hx
    simp only [intersectEntries, Option.some.injEq] at h
    subst h
    exact ⟨hx, fun kv hkv => by cases hkv⟩
  | cons kv kvs ih =>
    intro acc r h x hx
    unfold intersectEntries at h
    split at h
    · rename_i e; cases e
    · rename_i c k p c' p' l t m kvs' acc' e1 e2
      cases e2
      split at h
      · cases h
      · cases h; cases hx
      · rename_i r1 hne h1
        obtain ⟨a, b⟩ := ih _ _ h x hx
        simp only [computeIntersection] at h1
        split at h1
        · cases h1; cases a
        · obtain ⟨a1, s, s', a2, a3, a4⟩ := intersect_mem h1 x a
          refine ⟨a1, ?_⟩
          intro kv' hkv'
          rcases List.mem_cons.mp hkv' with rfl | hkv'
          · exact ⟨_, ⟨_, _, _, _, _, _, _, rfl⟩, _, a3, .inr ⟨s, s', a2, rfl, by rw [a4]; exact equal_refl _ _⟩⟩
          · exact b kv' hkv'
    · cases h

theorem intersectEntries_none (kvs : List Expr) (r : List Expr) (h : intersectEntries kvs none = some r) : False := by
  cases kvs with
  | nil => cases h
  | cons kv kvs =>
    unfold intersectEntries at h
    split at h
    · rename_i e; cases e
    · rename_i e1 e2
      cases e2
      simp only [computeIntersection] at h
      cases h
    · cases h

theorem selectIntersection_common (pkg : Bytes) (l r : List Expr) (h : selectIntersection l = some r) :
    ∃ c p kvs t m, l = [.dict c p kvs t m] ∧ ∀ x ∈ r, Common pkg kvs x := by
  unfold selectIntersection at h
  split at h
  · rename_i c p c1 k1 p1 c2 p2 l1 t2 m2 kvs t m
    refine ⟨_, _, _, _, _, rfl, ?_⟩
    intro x hx
    obtain ⟨a, b⟩ := intersectEntries_common pkg kvs _ _ h x hx
    intro kv hkv
    rcases List.mem_cons.mp hkv with rfl | hkv
    · exact ⟨l1, ⟨_, _, _, _, _, _, _, rfl⟩, x, a, .inl rfl⟩
    · exact b kv hkv
  · exact absurd h (fun h => intersectEntries_none _ _ h)
  · cases h

/-- an element common to all branches of a select operand is in every value of the expression -/
theorem common_in_value (w : World) (pkg : Bytes) (x : Expr) {z e : Expr} (ho : Operand z e) :
    ∀ {c ci pi p c' p' kvs t m t' a b}, z = .call c (.ident ⟨ci, pi, b!"select"⟩) p [.dict c' p' kvs t m] t' a b →
      Common pkg kvs x → ∀ v, Eval w e v → ∃ y ∈ v, Same pkg x y := by
  induction ho with
  | self =>
    intro c ci pi p c' p' kvs t m t' a b hz hc v hv
    subst hz
    cases hv with
    | select h1 h2 h3 =>
      obtain ⟨l, ⟨_, _, _, _, _, _, _, he⟩, y, hy, hs⟩ := hc _ (List.mem_of_getElem? h2)
      subst he
      rw [eval_unique w .list _ h3]
      exact ⟨y, hy, hs⟩
    | other _ _ h3 => exact absurd ⟨_, _, _, _, _, _, _, _, _, _, _, _, _, rfl⟩ h3
  | left _ ih =>
    intro c ci pi p c' p' kvs t m t' a b hz hc v hv
    cases hv with
    | plus h1 h2 =>
      obtain ⟨y, hy, hs⟩ := ih hz hc _ h1
      exact ⟨y, List.mem_append.mpr (.inl hy), hs⟩
    | other _ h2 => exact absurd rfl (h2 _ _ _ _ _)
  | right _ ih =>
    intro c ci pi p c' p' kvs t m t' a b hz hc v hv
    cases hv with
    | plus h1 h2 =>
      obtain ⟨y, hy, hs⟩ := ih hz hc _ h2
      exact ⟨y, List.mem_append.mpr (.inr hy), hs⟩
    | other _ h2 => exact absurd rfl (h2 _ _ _ _ _)

theorem fold_add (w : World) (ho : w.opaque_ .nil = none) (dwc : Bool) (pkg : Bytes) (items : List Expr) : ∀ e v v0,
    Eval w e v → SameSet pkg v0 v → (∀ c ∈ items, ∃ y ∈ v0, Same pkg c y) →
    ∃ v', Eval w (items.foldl (fun e c => addValueToList dwc e pkg c false) e) v' ∧ SameSet pkg v0 v' := by
  induction items with
  | nil => intro e v v0 hv hs _; exact ⟨v, hv, hs⟩
  | cons c items ih =>
    intro e v v0 hv hs hc
    obtain ⟨y, hy, hcy⟩ := hc c (by simp)
    obtain ⟨z, hz, hyz⟩ := hs.1 y hy
    obtain ⟨v1, h1, h2⟩ := C33_add_present w ho dwc e pkg c false v hv ⟨z, hz, same_trans hcy hyz⟩
    rw [List.foldl_cons]
    exact ih _ v1 v0 h1 (sameSet_trans hs h2) (fun c hc' => hc c (by simp [hc']))

/-- **C33 (resolution).** Pulling the elements common to all branches of a select out of it, and simplifying, gives an
expression that has, under every configuration in which the original has a value, the same elements up to order, repetition and
spelling of labels. -/
theorem C33_resolve (w : World) (ho : w.opaque_ .nil = none) (dwc : Bool) (pkg : Bytes) (e : Expr) (v : List Expr) (hv : Eval w e v) :
    ∃ v', Eval w (resolveValue dwc pkg e) v' ∧ SameSet pkg v v' := by
  unfold resolveValue
  obtain ⟨v', h1, h2⟩ := fold_add w ho dwc pkg ((allSelects e).flatMap fun l => (selectIntersection l).getD []) e v v hv
    (sameSet_refl _ _) (by
      intro c hc
      obtain ⟨l, hl, hc⟩ := List.mem_flatMap.mp hc
      cases hr : selectIntersection l with
      | none => rw [hr] at hc; cases hc
      | some r =>
        rw [hr] at hc
        obtain ⟨_, _, kvs, _, _, rfl, hcom⟩ := selectIntersection_common pkg l r hr
        obtain ⟨_, _, _, _, _, _, _, hop⟩ := (allSelects_iff e _).mp hl
        exact common_in_value w pkg c hop rfl (hcom c hc) v hv)
  exact ⟨v', C33_simplify w h1, h2⟩

/-! #### a case: `select({"x": [":a", ":b"], "y": [":a"]})` -/

def exSel : Expr := .call {} (.ident { name := b!"select" }) {} [.dict {} {} [
  .keyValue {} (.string { value := b!"x" }) {} (.list {} {} [.string { value := b!":a" }, .string { value := b!":b" }] {} false),
  .keyValue {} (.string { value := b!"y" }) {} (.list {} {} [.string { value := b!":a" }] {} false)] {} false] {} false false
def exWorld : World := ⟨fun _ => some 1, fun _ => none⟩

example : Eval exWorld exSel [.string { value := b!":a" }] := .select (i := 1) rfl rfl .list
example : resolveValue true b!"p" exSel = .binary {} (.call {} (.ident { name := b!"select" }) {} [.dict {} {} [
  .keyValue {} (.string { value := b!"x" }) {} (.list {} {} [.string { value := b!":b" }] {} false),
  .keyValue {} (.string { value := b!"y" }) {} (.list {} {} [] {} false)] {} false] {} false false) {} b!"+" false
    (.list {} {} [.string { value := b!":a" }] {} false) := rfl

/-- **C33 (finding).** In a select with one branch, an element that is not a string is copied, not moved: `select({"x": [V]})`
becomes `select({"x": [V]}) + [V]`. -/
theorem C33_copies_nonstrings :
    resolveValue true b!"p" (.call {} (.ident { name := b!"select" }) {} [.dict {} {} [
      .keyValue {} (.string { value := b!"x" }) {} (.list {} {} [.ident { name := b!"V" }] {} false)] {} false] {} false false)
    = .binary {} (.call {} (.ident { name := b!"select" }) {} [.dict {} {} [
      .keyValue {} (.string { value := b!"x" }) {} (.list {} {} [.ident { name := b!"V" }] {} false)] {} false] {} false false) {}
        b!"+" false (.list {} {} [.ident { name := b!"V" }] {} false) := rfl

/-! ### Nothing is left to simplify -/

/-- an entry of a dictionary whose value is the empty list -/
def NoItems (kv : Expr) : Prop := ∃ c p k c' p' e m, kv = .keyValue c k p (.list c' p' [] e m)

/-- In the operands of a sum no empty list and no two neighbouring lists are left, and every `select` in them has an entry that is not empty. -/
inductive Simplified : Expr → Prop
  | sum (c x p lb y) : Simplified x → Simplified y → (∀ c p e m, x ≠ .list c p [] e m) → (∀ c p e m, y ≠ .list c p [] e m) →
      (∀ c p l e m c' p' l' e' m', x = .list c p l e m → y ≠ .list c' p' l' e' m') → Simplified (.binary c x p b!"+" lb y)
  | select (c i p c' p' kvs e' m' rest e a b) : i.name = b!"select" → (∃ kv ∈ kvs, ¬ NoItems kv) → Simplified (.call c (.ident i) p (.dict c' p' kvs e' m' :: rest) e a b)
  | other (x) : (∀ c a p lb b, x ≠ .binary c a p b!"+" lb b) →
      (∀ c i p l e a b, x = .call c (.ident i) p l e a b → i.name = b!"select" → l ≠ [] ∧ ∀ c' p' kvs e' m' rest, l ≠ .dict c' p' kvs e' m' :: rest) → Simplified x

theorem emptyEntry_iff (kv : Expr) : emptyEntry kv = true ↔ NoItems kv := by
  unfold emptyEntry
  split
  · exact ⟨fun _ => ⟨_, _, _, _, _, _, _, rfl⟩, fun _ => rfl⟩
  · rename_i h
    exact ⟨nofun, fun ⟨c, p, k, c', p', e, m, he⟩ => absurd he (h _ _ _ _ _ _ _)⟩

theorem simplified_list (c p l e m) : Simplified (.list c p l e m) := .other _ (by intros; nofun) (by intro _ _ _ _ _ _ _ he; cases he)

/-- **C33 (simplification).** The simplified expression has nothing left to simplify. -/
theorem C33_simplified (e : Expr) : Simplified (simplifyLists e) := by
  have key : ∀ (c : Comments) (p : Pos) (lb : Bool) (x' y' : Expr), Simplified x' → Simplified y' → Simplified (match x', y' with
      | .list _ _ l _ _, .list _ _ k _ _ => .list {} {} (l ++ k) {} false
      | .list _ _ [] _ _, y' => y'
      | x', .list _ _ [] _ _ => x'
      | x', y' => .binary c x' p b!"+" lb y') := by
    intro c p lb x' y' hx hy
    split
    · exact simplified_list ..
    · exact hy
    · exact hx
    · rename_i h1 h2 h3
      exact .sum _ _ _ _ _ hx hy (fun _ _ _ _ he => h1 _ _ _ _ he) (fun _ _ _ _ he => h2 _ _ _ _ he) (fun _ _ _ _ _ _ _ _ _ _ he hf => h3 _ _ _ _ _ _ _ _ _ _ he hf)
  induction e using simplifyLists.induct
  case case1 c x p lb y _ _ _ _ _ _ _ _ _ _ _ _ _ _ ih2 ih1 => have := key c p lb _ _ ih2 ih1; simp only [simplifyLists, if_true]; exact this
  case case2 c x p lb y _ _ _ _ _ _ _ _ ih2 ih1 => have := key c p lb _ _ ih2 ih1; simp only [simplifyLists, if_true]; exact this
  case case3 c x p lb y _ _ _ _ _ _ _ _ ih2 ih1 => have := key c p lb _ _ ih2 ih1; simp only [simplifyLists, if_true]; exact this
  case case4 c x p lb y _ _ _ _ _ ih2 ih1 => have := key c p lb _ _ ih2 ih1; simp only [simplifyLists, if_true]; exact this
  case case5 h =>
    simp only [simplifyLists, if_neg h]
    exact .other _ (by intro _ _ _ _ _ he; cases he; exact h rfl) (by intro _ _ _ _ _ _ _ he; cases he)
  case case6 h =>
    simp only [simplifyLists, if_pos h]
    exact simplified_list ..
  case case7 h _ _ _ _ _ _ h2 =>
    simp only [simplifyLists, if_pos h, if_pos h2]
    exact simplified_list ..
  case case8 h _ _ _ _ _ _ h2 =>
    simp only [simplifyLists, if_pos h, if_neg h2]
    refine .select _ _ _ _ _ _ _ _ _ _ _ _ h ?_
    simp only [List.all_eq_true, emptyEntry_iff] at h2
    exact Classical.byContradiction fun hn => h2 fun kv hk => Classical.byContradiction fun hq => hn ⟨kv, hk, hq⟩
  case case9 h l h1 h2 =>
    have e : ∀ c i p e a b, i.name = b!"select" → simplifyLists (.call c (.ident i) p l e a b) = .call c (.ident i) p l e a b := by
      intro c i p e a b hi
      rw [simplifyLists, if_pos hi]
      · exact h1
      · exact h2
    rw [e _ _ _ _ _ _ h]
    exact .other _ (by intros; nofun) (by intro _ _ _ _ _ _ _ he _; cases he; exact ⟨h1, fun _ _ _ _ _ _ hl => h2 _ _ _ _ _ _ hl⟩)
  case case10 h =>
    unfold simplifyLists
    rw [if_neg h]
    exact .other _ (by intros; nofun) (by intro _ _ _ _ _ _ _ he hi; cases he; exact absurd hi h)
  case case11 h1 h2 =>
    have e : ∀ t, (∀ c x p o lb y, t ≠ .binary c x p o lb y) → (∀ c i p l e a b, t ≠ .call c (.ident i) p l e a b) → simplifyLists t = t := by
      intro t k1 k2
      unfold simplifyLists
      split
      · exact absurd rfl (k1 _ _ _ _ _ _)
      · exact absurd rfl (k2 _ _ _ _ _ _ _)
      · rfl
    rw [e _ (fun _ _ _ _ _ _ he => h1 _ _ _ _ _ _ he) (fun _ _ _ _ _ _ _ he => h2 _ _ _ _ _ _ _ he)]
    exact .other _ (fun _ _ _ _ _ he => h1 _ _ _ _ _ _ he) (fun _ _ _ _ _ _ _ he _ => (h2 _ _ _ _ _ _ _ he).elim)

end Verif.Props.Select
