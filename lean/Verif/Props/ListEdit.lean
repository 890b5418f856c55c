import Verif.Model.ListEdit
import Verif.Proofs.MapE
import Verif.Proofs.Sort
/-
C29 (adding to lists), C30 (sorted insertion), C31 (removing), C32 (replacing).
-/
namespace Verif.Props.ListEdit
open Verif Verif.Syntax Verif.Edit Verif.Walk

/-! ### Specification: the lists inside a concatenation -/

/-- The operands of a concatenation `a + b + ...`. -/
inductive Operand : Expr → Expr → Prop
  | self (e : Expr) : Operand e e
  | left {z c x p lb y} : Operand z x → Operand z (.binary c x p b!"+" lb y)
  | right {z c x p lb y} : Operand z y → Operand z (.binary c x p b!"+" lb y)

/-- `x` is an element of a list operand of `e`. -/
def InLists (x e : Expr) : Prop := ∃ c p l t m, Operand (.list c p l t m) e ∧ x ∈ l

/-- the entry's value is the list `l` -/
def EntryList (kv : Expr) (l : List Expr) : Prop := ∃ c k p c' p' t m, kv = .keyValue c k p (.list c' p' l t m)

/-- `x` is an element of a list in a branch of a `select({...})` operand of `e`. -/
def InSelects (x e : Expr) : Prop :=
  ∃ c ci pi p c' p' kvs t m rest t' a b kv l,
    Operand (.call c (.ident ⟨ci, pi, b!"select"⟩) p (.dict c' p' kvs t m :: rest) t' a b) e ∧ kv ∈ kvs ∧ EntryList kv l ∧ x ∈ l

/-- `x` is a string with the same label as `item`. -/
def SameLabel (item pkg : Bytes) (x : Expr) : Prop := ∃ s, x = .string s ∧ Labels.equal s.value item pkg = true

/-- `kv'` is `kv`, with the list that is its value changed as `R` says. -/
inductive EntryEdit (R : List Expr → List Expr → Prop) : Expr → Expr → Prop
  | list {c k p c' p' l l' t m} : R l l' → EntryEdit R (.keyValue c k p (.list c' p' l t m)) (.keyValue c k p (.list c' p' l' t m))
  | other {kv} : (∀ l, ¬ EntryList kv l) → EntryEdit R kv kv

/-- the call of `select` on a dictionary -/
def IsSelect (e : Expr) : Prop :=
  ∃ c ci pi p c' p' kvs t m rest t' a b, e = .call c (.ident ⟨ci, pi, b!"select"⟩) p (.dict c' p' kvs t m :: rest) t' a b

/-- `e'` is `e` with the elements of its list operands changed as `RL` says and the elements of the lists in its `select`
operands changed as `RS` says; nothing else changes. -/
inductive ListsEdit (RL RS : List Expr → List Expr → Prop) : Expr → Expr → Prop
  | list {c p l l' t m} : RL l l' → ListsEdit RL RS (.list c p l t m) (.list c p l' t m)
  | plus {c x x' p lb y y'} : ListsEdit RL RS x x' → ListsEdit RL RS y y' →
      ListsEdit RL RS (.binary c x p b!"+" lb y) (.binary c x' p b!"+" lb y')
  | select {c ci pi p c' p' kvs kvs' t m rest t' a b} : Forall2 (EntryEdit RS) kvs kvs' →
      ListsEdit RL RS (.call c (.ident ⟨ci, pi, b!"select"⟩) p (.dict c' p' kvs t m :: rest) t' a b)
        (.call c (.ident ⟨ci, pi, b!"select"⟩) p (.dict c' p' kvs' t m :: rest) t' a b)
  | other {e} : (∀ c p l t m, e ≠ .list c p l t m) → (∀ c x p lb y, e ≠ .binary c x p b!"+" lb y) → ¬ IsSelect e →
      ListsEdit RL RS e e

/-! ### The model's traversals meet the specification -/

theorem onValue_edit (f : List Expr → List Expr) (kv : Expr) : EntryEdit (fun l l' => l' = f l) kv (onValue f kv) := by
  unfold onValue
  split
  · exact .list rfl
  · rename_i h
    refine .other ?_
    rintro l ⟨c, k, p, c', p', t, m, rfl⟩
    exact h _ _ _ _ _ _ _ _ rfl

theorem map_onValue_edit (f : List Expr → List Expr) (kvs : List Expr) :
    Forall2 (EntryEdit (fun l l' => l' = f l)) kvs (kvs.map (onValue f)) := by
  induction kvs with
  | nil => exact .nil
  | cons kv kvs ih => exact .cons (onValue_edit f kv) ih

/-- changing the list operands and the lists in selects -/
theorem both_edit (f g : List Expr → List Expr) (e : Expr) :
    ListsEdit (fun l l' => l' = f l) (fun l l' => l' = g l) e (onSelects (onDict g) (onLists f e)) := by
  induction e using onLists.induct with
  | case1 c p l t m => exact .list rfl
  | case2 c x p lb y ih1 ih2 =>
    simp only [onLists, onSelects, if_true]
    exact .plus ih1 ih2
  | case3 c x p o lb y h =>
    simp only [onLists, onSelects, if_neg h]
    refine .other (by intros; simp) ?_ ?_
    · intro c x p lb y e; cases e; exact h rfl
    · rintro ⟨_, _, _, _, _, _, _, _, _, _, _, _, _, e⟩; cases e
  | case4 e h1 h2 =>
    have e1 : onLists f e = e := by
      unfold onLists; split
      · exact absurd rfl (h1 _ _ _ _ _)
      · exact absurd rfl (h2 _ _ _ _ _ _)
      · rfl
    rw [e1]
    unfold onSelects
    split
    · exact absurd rfl (h2 _ _ _ _ _ _)
    · rename_i c i p l t a b
      split
      · rename_i hs
        obtain ⟨ci, pi, n⟩ := i
        simp only at hs; subst hs
        unfold onDict
        split
        · exact .select (map_onValue_edit g _)
        · rename_i hd
          refine .other (by intros; simp) (by intros; simp) ?_
          rintro ⟨_, _, _, _, _, _, _, _, _, _, _, _, _, e⟩
          cases e
          exact hd _ _ _ _ _ _ rfl
      · rename_i hs
        refine .other (by intros; simp) (by intros; simp) ?_
        rintro ⟨_, _, _, _, _, _, _, _, _, _, _, _, _, e⟩
        cases e
        exact hs rfl
    · rename_i h3
      refine .other h1 (fun c x p lb y => h2 c x p _ lb y) ?_
      rintro ⟨_, _, _, _, _, _, _, _, _, _, _, _, _, e⟩
      exact h3 _ _ _ _ _ _ _ e

theorem map_onValue_id (kvs : List Expr) : kvs.map (onValue id) = kvs := by
  have : onValue id = id := by funext kv; unfold onValue; split <;> rfl
  rw [this, List.map_id]

theorem onLists_id (e : Expr) : onLists id e = e := by
  induction e using onLists.induct with
  | case1 => rfl
  | case2 c x p lb y ih1 ih2 => simp only [onLists, if_true, ih1, ih2]
  | case3 c x p o lb y h => simp only [onLists, if_neg h]
  | case4 e h1 h2 =>
    unfold onLists; split
    · exact absurd rfl (h1 _ _ _ _ _)
    · exact absurd rfl (h2 _ _ _ _ _ _)
    · rfl

theorem onSelects_id (e : Expr) : onSelects (onDict id) e = e := by
  induction e using onSelects.induct with
  | case1 c x p lb y ih1 ih2 => simp only [onSelects, if_true, ih1, ih2]
  | case2 c x p o lb y h => simp only [onSelects, if_neg h]
  | case3 c i p l t a b =>
    simp only [onSelects]
    split
    · congr 1
      unfold onDict; split
      · rw [map_onValue_id]
      · rfl
    · rfl
  | case4 e h1 h2 =>
    unfold onSelects; split
    · exact absurd rfl (h1 _ _ _ _ _ _)
    · exact absurd rfl (h2 _ _ _ _ _ _ _)
    · rfl

theorem forall2_imp' {R S : Expr → Expr → Prop} {l k : List Expr} (h : Forall2 R l k) (hRS : ∀ x ∈ l, ∀ y, R x y → S x y) :
    Forall2 S l k := by
  induction h with
  | nil => exact .nil
  | cons h _ ih => exact .cons (hRS _ (by simp) _ h) (ih (fun x hx => hRS x (by simp [hx])))

theorem entryEdit_imp {R S : List Expr → List Expr → Prop} (h : ∀ l l', R l l' → S l l') {x y : Expr} (hx : EntryEdit R x y) :
    EntryEdit S x y := by
  cases hx with
  | list h1 => exact .list (h _ _ h1)
  | other h1 => exact .other h1

theorem ListsEdit.imp {RL RS RL' RS' : List Expr → List Expr → Prop} (h1 : ∀ l l', RL l l' → RL' l l')
    (h2 : ∀ l l', RS l l' → RS' l l') {e e' : Expr} (h : ListsEdit RL RS e e') : ListsEdit RL' RS' e e' := by
  induction h with
  | list h => exact .list (h1 _ _ h)
  | plus _ _ ih1 ih2 => exact .plus ih1 ih2
  | select h => exact .select (forall2_imp h (fun _ _ hx => entryEdit_imp h2 hx))
  | other a b c => exact .other a b c

/-! #### what the relation says about elements -/

theorem operand_nonplus {z e : Expr} (h : Operand z e) (hp : ∀ c x p lb y, e ≠ .binary c x p b!"+" lb y) : z = e := by
  cases h with
  | self => rfl
  | left _ => exact absurd rfl (hp _ _ _ _ _)
  | right _ => exact absurd rfl (hp _ _ _ _ _)

theorem operand_plus {z c x p lb y} (h : Operand z (.binary c x p b!"+" lb y)) :
    z = .binary c x p b!"+" lb y ∨ Operand z x ∨ Operand z y := by
  cases h with
  | self => exact .inl rfl
  | left h => exact .inr (.inl h)
  | right h => exact .inr (.inr h)

theorem inLists_plus {v c x p lb y} : InLists v (.binary c x p b!"+" lb y) ↔ InLists v x ∨ InLists v y := by
  constructor
  · rintro ⟨c, p, l, t, m, h, hv⟩
    rcases operand_plus h with h | h | h
    · cases h
    · exact .inl ⟨_, _, _, _, _, h, hv⟩
    · exact .inr ⟨_, _, _, _, _, h, hv⟩
  · rintro (⟨c, p, l, t, m, h, hv⟩ | ⟨c, p, l, t, m, h, hv⟩)
    · exact ⟨_, _, _, _, _, .left h, hv⟩
    · exact ⟨_, _, _, _, _, .right h, hv⟩

theorem inLists_list {v c p l t m} : InLists v (.list c p l t m) ↔ v ∈ l := by
  constructor
  · rintro ⟨c, p, l', t, m, h, hv⟩
    have := operand_nonplus h (by intros; simp)
    cases this; exact hv
  · intro h; exact ⟨_, _, _, _, _, .self _, h⟩

theorem inLists_other {v e} (h1 : ∀ c p l t m, e ≠ .list c p l t m) (h2 : ∀ c x p lb y, e ≠ .binary c x p b!"+" lb y) :
    ¬ InLists v e := by
  rintro ⟨c, p, l, t, m, h, hv⟩
  have := operand_nonplus h h2
  exact h1 _ _ _ _ _ this.symm

theorem inSelects_plus {v c x p lb y} : InSelects v (.binary c x p b!"+" lb y) ↔ InSelects v x ∨ InSelects v y := by
  constructor
  · rintro ⟨_, _, _, _, _, _, _, _, _, _, _, _, _, kv, l, h, hv⟩
    rcases operand_plus h with h | h | h
    · cases h
    · exact .inl ⟨_, _, _, _, _, _, _, _, _, _, _, _, _, _, _, h, hv⟩
    · exact .inr ⟨_, _, _, _, _, _, _, _, _, _, _, _, _, _, _, h, hv⟩
  · rintro (⟨_, _, _, _, _, _, _, _, _, _, _, _, _, kv, l, h, hv⟩ | ⟨_, _, _, _, _, _, _, _, _, _, _, _, _, kv, l, h, hv⟩)
    · exact ⟨_, _, _, _, _, _, _, _, _, _, _, _, _, _, _, .left h, hv⟩
    · exact ⟨_, _, _, _, _, _, _, _, _, _, _, _, _, _, _, .right h, hv⟩

theorem inSelects_select {v c ci pi p c' p' kvs t m rest t' a b} :
    InSelects v (.call c (.ident ⟨ci, pi, b!"select"⟩) p (.dict c' p' kvs t m :: rest) t' a b) ↔
      ∃ kv ∈ kvs, ∃ l, EntryList kv l ∧ v ∈ l := by
  constructor
  · rintro ⟨_, _, _, _, _, _, _, _, _, _, _, _, _, kv, l, h, hkv, hl, hv⟩
    have := operand_nonplus h (by intros; simp)
    cases this; exact ⟨kv, hkv, l, hl, hv⟩
  · rintro ⟨kv, hkv, l, hl, hv⟩
    exact ⟨_, _, _, _, _, _, _, _, _, _, _, _, _, kv, l, .self _, hkv, hl, hv⟩

theorem inSelects_other {v e} (h1 : ¬ IsSelect e) (h2 : ∀ c x p lb y, e ≠ .binary c x p b!"+" lb y) : ¬ InSelects v e := by
  rintro ⟨_, _, _, _, _, _, _, _, _, _, _, _, _, kv, l, h, _⟩
  have := operand_nonplus h h2
  exact h1 ⟨_, _, _, _, _, _, _, _, _, _, _, _, _, this.symm⟩

/-- elements of list operands after an edit that filters -/
theorem filter_inLists {P : Expr → Prop} {RS : List Expr → List Expr → Prop} {e e' : Expr}
    (h : ListsEdit (fun l l' => ∀ x, x ∈ l' ↔ x ∈ l ∧ P x) RS e e') (x : Expr) : InLists x e' ↔ InLists x e ∧ P x := by
  induction h with
  | list h => rw [inLists_list, inLists_list]; exact h x
  | plus _ _ ih1 ih2 => rw [inLists_plus, inLists_plus, ih1, ih2]; exact or_and_right.symm
  | select h =>
    constructor
    · exact fun h => absurd h (inLists_other (by intros; simp) (by intros; simp))
    · exact fun h => absurd h.1 (inLists_other (by intros; simp) (by intros; simp))
  | other a b _ =>
    constructor
    · exact fun h => absurd h (inLists_other a b)
    · exact fun h => absurd h.1 (inLists_other a b)

theorem forall2_left {R : Expr → Expr → Prop} {l k : List Expr} (h : Forall2 R l k) : ∀ x ∈ l, ∃ y ∈ k, R x y := by
  induction h with
  | nil => simp
  | cons h _ ih =>
    intro x hx
    rcases List.mem_cons.mp hx with rfl | hx
    · exact ⟨_, by simp, h⟩
    · obtain ⟨y, hy, r⟩ := ih x hx; exact ⟨y, by simp [hy], r⟩

theorem forall2_right' {R : Expr → Expr → Prop} {l k : List Expr} (h : Forall2 R l k) : ∀ y ∈ k, ∃ x ∈ l, R x y := by
  induction h with
  | nil => simp
  | cons h _ ih =>
    intro y hy
    rcases List.mem_cons.mp hy with rfl | hy
    · exact ⟨_, by simp, h⟩
    · obtain ⟨x, hx, r⟩ := ih y hy; exact ⟨x, by simp [hx], r⟩

theorem filter_inSelects {P : Expr → Prop} {RL : List Expr → List Expr → Prop} {e e' : Expr}
    (h : ListsEdit RL (fun l l' => ∀ x, x ∈ l' ↔ x ∈ l ∧ P x) e e') (x : Expr) : InSelects x e' ↔ InSelects x e ∧ P x := by
  induction h with
  | list h =>
    constructor
    · exact fun h => absurd h (inSelects_other (by rintro ⟨_, _, _, _, _, _, _, _, _, _, _, _, _, e⟩; cases e) (by intros; simp))
    · exact fun h => absurd h.1 (inSelects_other (by rintro ⟨_, _, _, _, _, _, _, _, _, _, _, _, _, e⟩; cases e) (by intros; simp))
  | plus _ _ ih1 ih2 => rw [inSelects_plus, inSelects_plus, ih1, ih2]; exact or_and_right.symm
  | select h =>
    rw [inSelects_select, inSelects_select]
    constructor
    · rintro ⟨kv', hkv', l', hl', hx⟩
      obtain ⟨kv, hkv, r⟩ := forall2_right' h kv' hkv'
      cases r with
      | list r =>
        obtain ⟨_, _, _, _, _, _, _, e⟩ := hl'
        cases e
        exact ⟨⟨_, hkv, _, ⟨_, _, _, _, _, _, _, rfl⟩, ((r x).mp hx).1⟩, ((r x).mp hx).2⟩
      | other r => exact absurd hl' (r l')
    · rintro ⟨⟨kv, hkv, l, hl, hx⟩, hp⟩
      obtain ⟨kv', hkv', r⟩ := forall2_left h kv hkv
      cases r with
      | list r =>
        obtain ⟨_, _, _, _, _, _, _, e⟩ := hl
        cases e
        exact ⟨_, hkv', _, ⟨_, _, _, _, _, _, _, rfl⟩, (r x).mpr ⟨hx, hp⟩⟩
      | other r => exact absurd hl (r l)
  | other a b c =>
    constructor
    · exact fun h => absurd h (inSelects_other c b)
    · exact fun h => absurd h.1 (inSelects_other c b)

/-! ### C31: removing -/

/-- `x` is a string with the label of `item`, and not protected by comments. With `dwc` (delete with comments) nothing is
protected. -/
def Removed (dwc : Bool) (item pkg : Bytes) (x : Expr) : Prop :=
  ∃ s, x = .string s ∧ Labels.equal s.value item pkg = true ∧ (dwc = true ∨ (s.comments.before = [] ∧ s.comments.suffix = []))

/-- the item as it is looked for: quotes around it are removed -/
def ItemOf (arg item : Bytes) : Prop :=
  ((Quote.unquote arg).err = false → item = (Quote.unquote arg).s) ∧ ((Quote.unquote arg).err = true → item = arg)

theorem removable_iff (dwc : Bool) (item pkg : Bytes) (x : Expr) :
    (∀ s, removable dwc item pkg x = some s ↔ x = .string s ∧ Removed dwc item pkg x) := by
  intro s
  unfold removable
  split
  · rename_i s'
    constructor
    · intro h
      split at h
      · rename_i hc
        have h := Option.some.inj h
        subst h
        simp only [Bool.and_eq_true, Bool.or_eq_true, strHasComments, Bool.not_eq_true', Bool.or_eq_false_iff,
          Bool.not_eq_false', List.isEmpty_iff] at hc
        exact ⟨rfl, _, rfl, hc.1, hc.2⟩
      · cases h
    · rintro ⟨h, s'', h', h1, h2⟩
      cases h; cases h'
      rw [if_pos]
      simp only [Bool.and_eq_true, Bool.or_eq_true, strHasComments, Bool.not_eq_true', Bool.or_eq_false_iff,
          Bool.not_eq_false', List.isEmpty_iff]
      exact ⟨h1, h2⟩
  · rename_i h
    constructor
    · intro h; cases h
    · rintro ⟨h', _⟩; exact absurd h' (h s)

open Classical in
theorem removeFromList_eq (dwc : Bool) (item pkg : Bytes) (l : List Expr) : ∀ d,
    (removeFromList dwc item pkg l d).1 = l.filter (fun x => decide (¬ Removed dwc item pkg x)) ∧
    (((∀ x ∈ l, ¬ Removed dwc item pkg x) → (removeFromList dwc item pkg l d).2 = d) ∧
     ((∃ x ∈ l, Removed dwc item pkg x) → ∃ s, (removeFromList dwc item pkg l d).2 = some s ∧
        Expr.string s ∈ l ∧ Removed dwc item pkg (.string s))) := by
  induction l with
  | nil => intro d; exact ⟨rfl, fun _ => rfl, by simp⟩
  | cons x l ih =>
    intro d
    unfold removeFromList
    split
    · rename_i s hs
      obtain ⟨hx, hr⟩ := (removable_iff dwc item pkg x s).mp hs
      obtain ⟨h1, h2, h3⟩ := ih (some s)
      refine ⟨by rw [List.filter_cons_of_neg (by simp [hr]), h1], fun h => absurd hr (h x (by simp)), fun _ => ?_⟩
      by_cases he : ∃ y ∈ l, Removed dwc item pkg y
      · obtain ⟨s', e, hm, hr'⟩ := h3 he
        exact ⟨s', e, by simp [hm], hr'⟩
      · exact ⟨s, h2 (fun y hy hr' => he ⟨y, hy, hr'⟩), by simp [hx], hx ▸ hr⟩
    · rename_i hs
      have hr : ¬ Removed dwc item pkg x := by
        intro h
        have h' := h
        obtain ⟨s, hx, _⟩ := h'
        have := (removable_iff dwc item pkg x s).mpr ⟨hx, h⟩
        rw [hs] at this; cases this
      obtain ⟨h1, h2, h3⟩ := ih d
      refine ⟨by rw [List.filter_cons_of_pos (by simp [hr]), h1], fun h => h2 (fun y hy => h y (by simp [hy])), ?_⟩
      rintro ⟨y, hy, hr'⟩
      rcases List.mem_cons.mp hy with rfl | hy
      · exact absurd hr' hr
      · obtain ⟨s', e, hm, hr'⟩ := h3 ⟨y, hy, hr'⟩
        exact ⟨s', e, by simp [hm], hr'⟩

theorem unquoteItem_eq {arg item : Bytes} (h : ItemOf arg item) : unquoteItem arg = item := by
  unfold unquoteItem
  dsimp only
  cases h' : (Quote.unquote arg).err with
  | false => rw [if_pos rfl]; exact (h.1 h').symm
  | true => rw [if_neg (by simp)]; exact (h.2 h').symm

open Classical in
theorem selectDelete_edit (dwc : Bool) (item pkg : Bytes) (e : Expr) :
    ListsEdit (fun l l' => l' = l) (fun l l' => l' = l.filter (fun x => decide (¬ Removed dwc item pkg x))) e
      (selectDelete dwc item pkg e) := by
  have := both_edit id (fun l => (removeFromList dwc item pkg l none).1) e
  rw [onLists_id] at this
  exact this.imp (fun _ _ h => h) (fun l l' h => by rw [h]; exact (removeFromList_eq dwc item pkg l none).1)

open Classical in
/-- **C31 (exact).** Deleting an item filters every list operand and every list in a select branch: the elements with the
item's label that are not protected go, all others stay in order, and nothing else changes. -/
theorem C31_exact (dwc : Bool) (arg item pkg : Bytes) (h : ItemOf arg item) (e : Expr) :
    ListsEdit (fun l l' => l' = l.filter (fun x => decide (¬ Removed dwc item pkg x)))
      (fun l l' => l' = l.filter (fun x => decide (¬ Removed dwc item pkg x))) e (listDelete dwc arg pkg e).1 := by
  unfold listDelete
  simp only [unquoteItem_eq h]
  exact (both_edit _ _ e).imp (fun l l' h => by rw [h]; exact (removeFromList_eq dwc item pkg l none).1)
    (fun l l' h => by rw [h]; exact (removeFromList_eq dwc item pkg l none).1)

/-- **C31 (all and only).** After deletion, the elements of the lists are exactly the old ones that are not to be removed;
the same holds inside selects. -/
theorem C31_elements (dwc : Bool) (arg item pkg : Bytes) (h : ItemOf arg item) (e x : Expr) :
    (InLists x (listDelete dwc arg pkg e).1 ↔ InLists x e ∧ ¬ Removed dwc item pkg x) ∧
    (InSelects x (listDelete dwc arg pkg e).1 ↔ InSelects x e ∧ ¬ Removed dwc item pkg x) := by
  have he := C31_exact dwc arg item pkg h e
  exact ⟨filter_inLists (P := fun x => ¬ Removed dwc item pkg x) (he.imp (fun l l' e x => by rw [e, List.mem_filter]; simp) (fun _ _ h => h)) x,
    filter_inSelects (P := fun x => ¬ Removed dwc item pkg x) (he.imp (fun _ _ h => h) (fun l l' e x => by rw [e, List.mem_filter]; simp)) x⟩

theorem mem_allLists (e x : Expr) : (∃ l ∈ allLists e, x ∈ l) ↔ InLists x e := by
  induction e using allLists.induct with
  | case1 c p l t m => rw [inLists_list]; simp [allLists]
  | case2 c x' p lb y ih1 ih2 =>
    rw [inLists_plus, ← ih1, ← ih2]
    simp only [allLists, if_true, List.mem_append]
    constructor
    · rintro ⟨l, h | h, hx⟩
      · exact .inl ⟨l, h, hx⟩
      · exact .inr ⟨l, h, hx⟩
    · rintro (⟨l, h, hx⟩ | ⟨l, h, hx⟩)
      · exact ⟨l, .inl h, hx⟩
      · exact ⟨l, .inr h, hx⟩
  | case3 c x' p o lb y h =>
    constructor
    · simp [allLists, if_neg h]
    · intro h'
      exact absurd h' (inLists_other (by intros; simp) (by intro c x p lb y e; cases e; exact h rfl))
  | case4 e h1 h2 =>
    have : allLists e = [] := by
      unfold allLists; split
      · exact absurd rfl (h1 _ _ _ _ _)
      · exact absurd rfl (h2 _ _ _ _ _ _)
      · rfl
    rw [this]
    constructor
    · simp
    · intro h'
      exact absurd h' (inLists_other (fun c p l t m => h1 c p l t m) (fun c x p lb y => h2 c x p _ lb y))

theorem mem_entryList (kv : Expr) (l : List Expr) : l ∈ entryList kv ↔ EntryList kv l := by
  unfold entryList
  split
  · constructor
    · intro h; rw [List.mem_singleton.mp h]; exact ⟨_, _, _, _, _, _, _, rfl⟩
    · rintro ⟨_, _, _, _, _, _, _, e⟩; cases e; simp
  · rename_i h
    constructor
    · simp
    · rintro ⟨_, _, _, _, _, _, _, e⟩; exact absurd e (h _ _ _ _ _ _ _ _)

theorem mem_selectLists (e x : Expr) : (∃ l ∈ (allSelects e).flatMap dictLists, x ∈ l) ↔ InSelects x e := by
  induction e using allSelects.induct with
  | case1 c x' p lb y ih1 ih2 =>
    rw [inSelects_plus, ← ih1, ← ih2]
    simp only [allSelects, if_true, List.flatMap_append, List.mem_append]
    constructor
    · rintro ⟨l, h | h, hx⟩
      · exact .inl ⟨l, h, hx⟩
      · exact .inr ⟨l, h, hx⟩
    · rintro (⟨l, h, hx⟩ | ⟨l, h, hx⟩)
      · exact ⟨l, .inl h, hx⟩
      · exact ⟨l, .inr h, hx⟩
  | case2 c x' p o lb y h =>
    constructor
    · simp [allSelects, if_neg h]
    · intro h'
      exact absurd h' (inSelects_other (by rintro ⟨_, _, _, _, _, _, _, _, _, _, _, _, _, e⟩; cases e)
        (by intro c x p lb y e; cases e; exact h rfl))
  | case3 c i p l t a b h =>
    obtain ⟨ci, pi, n⟩ := i
    simp only at h; subst h
    simp only [allSelects, if_true, List.flatMap_cons, List.flatMap_nil, List.append_nil]
    by_cases hd : ∃ c' p' kvs t' m rest, l = .dict c' p' kvs t' m :: rest
    · obtain ⟨c', p', kvs, t', m, rest, rfl⟩ := hd
      rw [inSelects_select]
      simp only [dictLists, List.mem_flatMap, mem_entryList]
      constructor
      · rintro ⟨l, ⟨kv, h1, h2⟩, h3⟩; exact ⟨kv, h1, l, h2, h3⟩
      · rintro ⟨kv, h1, l, h2, h3⟩; exact ⟨l, ⟨kv, h1, h2⟩, h3⟩
    · have : dictLists l = [] := by
        unfold dictLists; split
        · exact absurd ⟨_, _, _, _, _, _, rfl⟩ hd
        · rfl
      rw [this]
      constructor
      · simp
      · intro h'
        refine absurd h' (inSelects_other ?_ (by intros; simp))
        rintro ⟨_, _, _, _, _, _, _, _, _, _, _, _, _, e⟩
        cases e; exact hd ⟨_, _, _, _, _, _, rfl⟩
  | case4 c i p l t a b h =>
    constructor
    · simp [allSelects, if_neg h]
    · intro h'
      refine absurd h' (inSelects_other ?_ (by intros; simp))
      rintro ⟨_, _, _, _, _, _, _, _, _, _, _, _, _, e⟩
      cases e; exact h rfl
  | case5 e h1 h2 =>
    have : allSelects e = [] := by
      unfold allSelects; split
      · exact absurd rfl (h1 _ _ _ _ _ _)
      · exact absurd rfl (h2 _ _ _ _ _ _ _)
      · rfl
    rw [this]
    constructor
    · simp
    · intro h'
      refine absurd h' (inSelects_other ?_ (fun c x p lb y => h1 c x p _ lb y))
      rintro ⟨_, _, _, _, _, _, _, _, _, _, _, _, _, e⟩
      exact h2 _ _ _ _ _ _ _ e

theorem foldl_removed (dwc : Bool) (item pkg : Bytes) (ls : List (List Expr)) : ∀ d,
    ((∀ l ∈ ls, ∀ x ∈ l, ¬ Removed dwc item pkg x) → ls.foldl (fun d l => (removeFromList dwc item pkg l d).2) d = d) ∧
    ((∃ l ∈ ls, ∃ x ∈ l, Removed dwc item pkg x) → ∃ s, ls.foldl (fun d l => (removeFromList dwc item pkg l d).2) d = some s ∧
      Removed dwc item pkg (.string s) ∧ ∃ l ∈ ls, Expr.string s ∈ l) := by
  induction ls with
  | nil => intro d; exact ⟨fun _ => rfl, by simp⟩
  | cons l ls ih =>
    intro d
    obtain ⟨_, h2, h3⟩ := removeFromList_eq dwc item pkg l d
    obtain ⟨i1, i2⟩ := ih (removeFromList dwc item pkg l d).2
    rw [List.foldl_cons]
    constructor
    · intro h
      rw [i1 (fun k hk => h k (by simp [hk])), h2 (h l (by simp))]
    · rintro ⟨k, hk, x, hx, hr⟩
      by_cases hn : ∃ k ∈ ls, ∃ x ∈ k, Removed dwc item pkg x
      · obtain ⟨s, e, hr, l', hl', hs⟩ := i2 hn
        exact ⟨s, e, hr, l', by simp [hl'], hs⟩
      · rcases List.mem_cons.mp hk with rfl | hk
        · obtain ⟨s, e, hm, hr⟩ := h3 ⟨x, hx, hr⟩
          rw [i1 (fun k hk x hx hr => hn ⟨k, hk, x, hx, hr⟩)]
          exact ⟨s, e, hr, k, by simp, hm⟩
        · exact absurd ⟨k, hk, x, hx, hr⟩ hn

/-- **C31 (result).** Something is returned iff something was removed, and what is returned is a removed element. -/
theorem C31_result (dwc : Bool) (arg item pkg : Bytes) (h : ItemOf arg item) (e : Expr) :
    ((∃ x, (InLists x e ∨ InSelects x e) ∧ Removed dwc item pkg x) →
      ∃ s, (listDelete dwc arg pkg e).2 = some s ∧ Removed dwc item pkg (.string s) ∧
        (InLists (.string s) e ∨ InSelects (.string s) e)) ∧
    ((¬ ∃ x, (InLists x e ∨ InSelects x e) ∧ Removed dwc item pkg x) → (listDelete dwc arg pkg e).2 = none) := by
  have hmem : ∀ x, (∃ l ∈ allLists e ++ (allSelects e).flatMap dictLists, x ∈ l) ↔ InLists x e ∨ InSelects x e := by
    intro x
    rw [← mem_allLists, ← mem_selectLists]
    constructor
    · rintro ⟨l, hl, hx⟩
      rcases List.mem_append.mp hl with hl | hl
      · exact .inl ⟨l, hl, hx⟩
      · exact .inr ⟨l, hl, hx⟩
    · rintro (⟨l, hl, hx⟩ | ⟨l, hl, hx⟩)
      · exact ⟨l, List.mem_append.mpr (.inl hl), hx⟩
      · exact ⟨l, List.mem_append.mpr (.inr hl), hx⟩
  have hf := foldl_removed dwc item pkg (allLists e ++ (allSelects e).flatMap dictLists) none
  unfold listDelete
  simp only [unquoteItem_eq h]
  constructor
  · rintro ⟨x, hx, hr⟩
    obtain ⟨l, hl, hxl⟩ := (hmem x).mpr hx
    obtain ⟨s, e1, e2, e3⟩ := hf.2 ⟨l, hl, x, hxl, hr⟩
    exact ⟨s, e1, e2, (hmem _).mp e3⟩
  · intro hn
    exact hf.1 (fun l hl x hx hr => hn ⟨x, (hmem x).mp ⟨l, hl, hx⟩, hr⟩)

/-! a list, a select and a protected element -/
def exDeps : Expr :=
  .binary {} (.list {} {} [.string { value := b!":a" }, .string { value := b!"//p:b" }] {} false) {} b!"+" false
    (.call {} (.ident { name := b!"select" }) {} [.dict {} {} [.keyValue {} (.string { value := b!"c" }) {}
      (.list {} {} [.string { value := b!"//p:a", comments := { before := [{ token := b!"# keep" }] } }, .string { value := b!"b" }] {} false)] {} false] {} false false)
example : (listDelete false b!"a" b!"p" exDeps).2 = some { value := b!":a" } ∧
    (listDelete true b!"a" b!"p" exDeps).2 = some { value := b!"//p:a", comments := { before := [{ token := b!"# keep" }] } } := by
  constructor <;> rfl
example : ItemOf b!"a" b!"a" := ⟨fun h => absurd h (by decide), fun _ => rfl⟩

/-! ### C32: replacing -/

/-- every select in the concatenation has exactly one argument, a dictionary -/
def PlainSelects (e : Expr) : Prop :=
  ∀ c ci pi p l t a b, Operand (.call c (.ident ⟨ci, pi, b!"select"⟩) p l t a b) e → ∃ c' p' kvs t' m, l = [.dict c' p' kvs t' m]

theorem allSelects_iff (e : Expr) (l : List Expr) :
    l ∈ allSelects e ↔ ∃ c ci pi p t a b, Operand (.call c (.ident ⟨ci, pi, b!"select"⟩) p l t a b) e := by
  induction e using allSelects.induct with
  | case1 c x' p lb y ih1 ih2 =>
    simp only [allSelects, if_true, List.mem_append, ih1, ih2]
    constructor
    · rintro (⟨c, ci, pi, p, t, a, b, h⟩ | ⟨c, ci, pi, p, t, a, b, h⟩)
      · exact ⟨_, _, _, _, _, _, _, .left h⟩
      · exact ⟨_, _, _, _, _, _, _, .right h⟩
    · rintro ⟨c, ci, pi, p, t, a, b, h⟩
      rcases operand_plus h with h | h | h
      · cases h
      · exact .inl ⟨_, _, _, _, _, _, _, h⟩
      · exact .inr ⟨_, _, _, _, _, _, _, h⟩
  | case2 c x' p o lb y h =>
    simp only [allSelects, if_neg h, List.not_mem_nil, false_iff]
    rintro ⟨_, _, _, _, _, _, _, h'⟩
    have := operand_nonplus h' (by intro c x p lb y e; cases e; exact h rfl)
    cases this
  | case3 c i p l' t a b h =>
    obtain ⟨ci, pi, n⟩ := i
    simp only at h; subst h
    simp only [allSelects, if_true, List.mem_singleton]
    constructor
    · intro h; subst h; exact ⟨_, _, _, _, _, _, _, .self _⟩
    · rintro ⟨_, _, _, _, _, _, _, h'⟩
      have := operand_nonplus h' (by intros; simp)
      cases this; rfl
  | case4 c i p l' t a b h =>
    simp only [allSelects, if_neg h, List.not_mem_nil, false_iff]
    rintro ⟨_, _, _, _, _, _, _, h'⟩
    have := operand_nonplus h' (by intros; simp)
    cases this; exact h rfl
  | case5 e h1 h2 =>
    have : allSelects e = [] := by
      unfold allSelects; split
      · exact absurd rfl (h1 _ _ _ _ _ _)
      · exact absurd rfl (h2 _ _ _ _ _ _ _)
      · rfl
    rw [this]
    simp only [List.not_mem_nil, false_iff]
    rintro ⟨_, _, _, _, _, _, _, h'⟩
    have := operand_nonplus h' (fun c x p lb y => h1 c x p _ lb y)
    exact h2 _ _ _ _ _ _ _ this.symm

theorem plain_iff (e : Expr) : (allSelects e).all plainSelect = true ↔ PlainSelects e := by
  rw [List.all_eq_true]
  have hp : ∀ l, plainSelect l = true ↔ ∃ c' p' kvs t' m, l = [Expr.dict c' p' kvs t' m] := by
    intro l
    unfold plainSelect
    split
    · exact ⟨fun _ => ⟨_, _, _, _, _, rfl⟩, fun _ => rfl⟩
    · rename_i h
      constructor
      · intro h; cases h
      · rintro ⟨_, _, _, _, _, e⟩; exact absurd e (h _ _ _ _ _)
  constructor
  · intro h c ci pi p l t a b ho
    exact (hp l).mp (h l ((allSelects_iff e l).mpr ⟨_, _, _, _, _, _, _, ho⟩))
  · intro h l hl
    obtain ⟨_, _, _, _, _, _, _, ho⟩ := (allSelects_iff e l).mp hl
    exact (hp l).mpr (h _ _ _ _ _ _ _ _ ho)

/-- the new element: the new label (shortened relative to the package, unless that is turned off) with the old comments -/
def newElem (short : Bool) (value pkg : Bytes) (s : StringN) : Expr :=
  .string { value := if short then Labels.shorten value pkg else value, comments := s.comments }

/-- element by element, the strings with the old label are replaced, all else is kept -/
def Replaced (short : Bool) (old value pkg : Bytes) (l l' : List Expr) : Prop :=
  Forall2 (fun x x' => (∀ s, x = .string s → Labels.equal s.value old pkg = true → x' = newElem short value pkg s) ∧
    (¬ SameLabel old pkg x → x' = x)) l l'

theorem replaced_map (short : Bool) (old value pkg : Bytes) (l : List Expr) :
    Replaced short old value pkg l (l.map (replaceElem short old value pkg)) := by
  induction l with
  | nil => exact .nil
  | cons x l ih =>
    refine .cons ⟨?_, ?_⟩ ih
    · rintro s rfl h
      simp only [replaceElem, h, if_true]; rfl
    · intro h
      unfold replaceElem
      split
      · rename_i s
        rw [if_neg]
        intro hc
        exact h ⟨s, rfl, hc⟩
      · rfl

/-- **C32 (exact).** Replacing changes, in every list operand and (if all selects are plain) in every list of a select branch,
exactly the strings with the old label, in place and keeping their comments; if some select is not plain, lists in selects are
left alone. Nothing else changes. -/
theorem C32_exact (short : Bool) (old value pkg : Bytes) (e : Expr) :
    (PlainSelects e → ListsEdit (Replaced short old value pkg) (Replaced short old value pkg) e (listReplace short old value pkg e).1) ∧
    (¬ PlainSelects e → ListsEdit (Replaced short old value pkg) (fun l l' => l' = l) e (listReplace short old value pkg e).1) := by
  constructor
  · intro h
    simp only [listReplace, onListsIncludingSelects, (plain_iff e).mpr h, if_true]
    exact (both_edit _ _ e).imp (fun l l' h => by rw [h]; exact replaced_map ..) (fun l l' h => by rw [h]; exact replaced_map ..)
  · intro h
    simp only [listReplace, onListsIncludingSelects]
    rw [if_neg (fun hc => h ((plain_iff e).mp hc))]
    have := both_edit (fun l => l.map (replaceElem short old value pkg)) id e
    rw [onSelects_id] at this
    exact this.imp (fun l l' h => by rw [h]; exact replaced_map ..) (fun l l' h => h)

/-- **C32 (result).** True is returned iff there was something to replace. -/
theorem C32_result (short : Bool) (old value pkg : Bytes) (e : Expr) :
    (listReplace short old value pkg e).2 = true ↔
      ∃ x, (InLists x e ∨ (PlainSelects e ∧ InSelects x e)) ∧ SameLabel old pkg x := by
  have hr : ∀ x, replaces old pkg x = true ↔ SameLabel old pkg x := by
    intro x
    unfold replaces
    split
    · exact ⟨fun h => ⟨_, rfl, h⟩, fun ⟨s, e, h⟩ => by cases e; exact h⟩
    · rename_i h
      constructor
      · intro h; cases h
      · rintro ⟨s, e, _⟩; exact absurd e (h s)
  have hs : ∀ x, (∃ l ∈ allListsFromSelects e, x ∈ l) ↔ PlainSelects e ∧ InSelects x e := by
    intro x
    unfold allListsFromSelects
    split
    · rename_i h; rw [mem_selectLists]; exact ⟨fun h' => ⟨(plain_iff e).mp h, h'⟩, fun h => h.2⟩
    · rename_i h
      constructor
      · simp
      · rintro ⟨h', _⟩; exact absurd ((plain_iff e).mpr h') h
  simp only [listReplace, List.any_eq_true, List.mem_flatten, hr]
  constructor
  · rintro ⟨x, ⟨l, hl, hx⟩, h⟩
    refine ⟨x, ?_, h⟩
    rcases List.mem_append.mp hl with hl | hl
    · exact .inl ((mem_allLists e x).mp ⟨l, hl, hx⟩)
    · exact .inr ((hs x).mp ⟨l, hl, hx⟩)
  · rintro ⟨x, h' | h', h⟩
    · obtain ⟨l, hl, hx⟩ := (mem_allLists e x).mpr h'
      exact ⟨x, ⟨l, List.mem_append.mpr (.inl hl), hx⟩, h⟩
    · obtain ⟨l, hl, hx⟩ := (hs x).mpr h'
      exact ⟨x, ⟨l, List.mem_append.mpr (.inr hl), hx⟩, h⟩

example : (listReplace true b!"//p:b" b!"//p:c" b!"p" exDeps).1 =
  .binary {} (.list {} {} [.string { value := b!":a" }, .string { value := b!":c" }] {} false) {} b!"+" false
    (.call {} (.ident { name := b!"select" }) {} [.dict {} {} [.keyValue {} (.string { value := b!"c" }) {}
      (.list {} {} [.string { value := b!"//p:a", comments := { before := [{ token := b!"# keep" }] } }, .string { value := b!":c" }] {} false)] {} false] {} false false) := rfl

/-! ### C30: sorted insertion -/

/-- the order of elements: other expressions, local labels, absolute labels; strings of one group by their bytes -/
def group : Expr → Nat
  | .string s => if hasPrefix s.value b!"//" then 2 else 1
  | _ => 0

def text : Expr → Bytes
  | .string s => s.value
  | _ => []

/-- `a` must not come after `b` -/
def Before (a b : Expr) : Prop := group a < group b ∨ (group a = group b ∧ strLess (text a) (text b) = true)

theorem exprLess_iff (a b : Expr) : exprLess a b = true ↔ Before a b := by
  have hn : strLess [] [] = false := rfl
  unfold exprLess Before
  split
  · rename_i s1 s2
    simp only [group, text]
    by_cases h1 : hasPrefix s1.value b!"//" = true <;> by_cases h2 : hasPrefix s2.value b!"//" = true <;> simp [h1, h2]
  · rename_i s1 x h
    have : group b = 0 := by unfold group; split; exact absurd rfl (h _); rfl
    rw [this]
    simp only [Bool.false_eq_true, false_iff, group]
    rintro (h | ⟨h, _⟩) <;> split at h <;> simp at h
  · rename_i s2 h
    have : group a = 0 := by unfold group; split; exact absurd rfl (h _); rfl
    rw [this]
    simp only [group, true_iff]
    left; split <;> simp
  · rename_i h1 h2 h3
    by_cases ha : ∃ s, a = .string s
    · obtain ⟨s, rfl⟩ := ha
      exact absurd rfl (h1 s)
    · by_cases hb : ∃ s, b = .string s
      · obtain ⟨s, rfl⟩ := hb
        exact absurd rfl (h2 s)
      · have ga : group a = 0 ∧ text a = [] := by
          unfold group text
          split
          · exact absurd ⟨_, rfl⟩ ha
          · exact ⟨rfl, rfl⟩
        have gb : group b = 0 ∧ text b = [] := by
          unfold group text
          split
          · exact absurd ⟨_, rfl⟩ hb
          · exact ⟨rfl, rfl⟩
        rw [ga.1, ga.2, gb.1, gb.2, hn]
        simp

theorem before_trans {a b c : Expr} (h1 : Before a b) (h2 : Before b c) : Before a c := by
  unfold Before at *
  rcases h1 with h1 | ⟨h1, h1'⟩ <;> rcases h2 with h2 | ⟨h2, h2'⟩
  · left; omega
  · left; omega
  · left; omega
  · right; exact ⟨h1.trans h2, strLess_total.trans _ _ _ h1' h2'⟩

/-- **C30 (place).** The item is inserted in front of the first element that belongs after it; nothing else changes. -/
theorem C30_insert (item : Expr) (l : List Expr) : ∃ pre post, l = pre ++ post ∧ sortedInsert item l = pre ++ item :: post ∧
    (∀ x ∈ pre, ¬ Before item x) ∧ (∀ x, post.head? = some x → Before item x) := by
  induction l with
  | nil => exact ⟨[], [], rfl, rfl, by simp, by simp⟩
  | cons x l ih =>
    by_cases h : exprLess item x = true
    · refine ⟨[], x :: l, rfl, by simp [sortedInsert, h], by simp, ?_⟩
      intro y hy; cases hy; exact (exprLess_iff _ _).mp h
    · obtain ⟨pre, post, h1, h2, h3, h4⟩ := ih
      refine ⟨x :: pre, post, by rw [h1]; rfl, by rw [sortedInsert, if_neg h, h2]; rfl, ?_, h4⟩
      intro y hy
      rcases List.mem_cons.mp hy with rfl | hy
      · exact fun hc => h ((exprLess_iff _ _).mpr hc)
      · exact h3 y hy

/-- in order: no element belongs before an earlier one -/
def InOrder (l : List Expr) : Prop := l.Pairwise fun a b => ¬ Before b a

/-- **C30 (sorted).** Insertion keeps a list in order, and adds exactly the item. -/
theorem C30_sorted (item : Expr) (l : List Expr) (h : InOrder l) :
    InOrder (sortedInsert item l) ∧ (sortedInsert item l).Perm (item :: l) := by
  obtain ⟨pre, post, h1, h2, h3, h4⟩ := C30_insert item l
  subst h1
  rw [h2]
  refine ⟨?_, List.perm_middle⟩
  unfold InOrder at *
  rw [List.pairwise_append] at h ⊢
  obtain ⟨ha, hb, hc⟩ := h
  refine ⟨ha, ?_, ?_⟩
  · rw [List.pairwise_cons]
    refine ⟨?_, hb⟩
    intro y hy hyi
    cases post with
    | nil => cases hy
    | cons z post =>
      have hz := h4 z rfl
      rcases List.mem_cons.mp hy with rfl | hy
      · have := before_trans hyi hz
        rcases this with h | ⟨_, h⟩
        · omega
        · rw [strLess_total.irrefl] at h; cases h
      · exact (List.pairwise_cons.mp hb).1 y hy (before_trans hyi hz)
  · intro a ha' b hb'
    rcases List.mem_cons.mp hb' with rfl | hb'
    · exact h3 a ha'
    · exact hc a ha' b hb'

example : sortedInsert (.string { value := b!":b" }) [.ident { name := b!"X" }, .string { value := b!":a" }, .string { value := b!":c" }, .string { value := b!"//a" }]
  = [.ident { name := b!"X" }, .string { value := b!":a" }, .string { value := b!":b" }, .string { value := b!":c" }, .string { value := b!"//a" }] := rfl

/-! ### C29: adding -/

/-- `e'` is `e` with its first list operand (from the left) changed from `l` to `f l`. -/
inductive FirstListEdit (f : List Expr → List Expr) : Expr → Expr → Prop
  | list {c p l t m} : FirstListEdit f (.list c p l t m) (.list c p (f l) t m)
  | left {c x x' p lb y} : FirstListEdit f x x' → FirstListEdit f (.binary c x p b!"+" lb y) (.binary c x' p b!"+" lb y)
  | right {c x p lb y y'} : (∀ c p l t m, ¬ Operand (.list c p l t m) x) → FirstListEdit f y y' →
      FirstListEdit f (.binary c x p b!"+" lb y) (.binary c x p b!"+" lb y')

theorem onFirstList_spec (f : List Expr → List Expr) (e : Expr) :
    (∀ e', onFirstList f e = some e' → FirstListEdit f e e') ∧
    (onFirstList f e = none → ∀ c p l t m, ¬ Operand (.list c p l t m) e) := by
  induction e using onFirstList.induct f with
  | case1 c p l t m => simp only [onFirstList]; exact ⟨fun e' h => by cases h; exact .list, fun h => by cases h⟩
  | case2 c x p lb y x' hx ih1 =>
    simp only [onFirstList, if_true]
    rw [hx]
    exact ⟨fun e' h => by cases h; exact .left (ih1.1 x' hx), fun h => by cases h⟩
  | case3 c x p lb y hx ih1 ih2 =>
    simp only [onFirstList, if_true, hx]
    cases hy : onFirstList f y with
    | none =>
      refine ⟨(fun e' h => nomatch h), fun _ c p l t m ho => ?_⟩
      rcases operand_plus ho with h | h | h
      · cases h
      · exact ih1.2 hx _ _ _ _ _ h
      · exact ih2.2 hy _ _ _ _ _ h
    | some y' => exact ⟨fun e' h => by cases h; exact .right (ih1.2 hx) (ih2.1 y' hy), fun h => by cases h⟩
  | case4 c x p o lb y h =>
    simp only [onFirstList, if_neg h]
    refine ⟨(fun e' h => nomatch h), fun _ c p l t m ho => ?_⟩
    have := operand_nonplus ho (by intro c x p lb y e; cases e; exact h rfl)
    cases this
  | case5 e h1 h2 =>
    have : onFirstList f e = none := by
      unfold onFirstList; split
      · exact absurd rfl (h1 _ _ _ _ _)
      · exact absurd rfl (h2 _ _ _ _ _ _)
      · rfl
    rw [this]
    refine ⟨(fun e' h => nomatch h), fun _ c p l t m ho => ?_⟩
    have := operand_nonplus ho (fun c x p lb y => h2 c x p _ lb y)
    exact h1 _ _ _ _ _ this.symm

/-- how the item is put into a list: at its place in the order, or at the end -/
def put (sorted : Bool) (item : Expr) (l : List Expr) : List Expr := if sorted then sortedInsert item l else l ++ [item]

theorem addTo_spec (item : Expr) (sorted : Bool) (e : Expr) :
    FirstListEdit (put sorted item) e (addTo item sorted e) ∨
    ((∀ c p l t m, ¬ Operand (.list c p l t m) e) ∧
      addTo item sorted e = .binary {} e {} b!"+" false (.list {} {} [item] {} false)) := by
  have hs := onFirstList_spec (put sorted item) e
  unfold addTo
  split
  · rename_i e' h; exact .inl (hs.1 e' h)
  · rename_i h; exact .inr ⟨hs.2 h, rfl⟩

theorem mem_put (sorted : Bool) (item : Expr) (l : List Expr) (x : Expr) : x ∈ put sorted item l ↔ x = item ∨ x ∈ l := by
  unfold put
  cases sorted with
  | false => simp [or_comm]
  | true =>
    obtain ⟨pre, post, h1, h2, _⟩ := C30_insert item l
    rw [if_pos rfl, h2, h1]
    simp only [List.mem_append, List.mem_cons]
    constructor
    · rintro (h | h | h) <;> simp [h]
    · rintro (h | h | h) <;> simp [h]

theorem firstEdit_inLists {f : List Expr → List Expr} {item : Expr} (hf : ∀ l x, x ∈ f l ↔ x = item ∨ x ∈ l) {e e' : Expr}
    (h : FirstListEdit f e e') (x : Expr) : (InLists x e' ↔ x = item ∨ InLists x e) ∧ (InSelects x e' ↔ InSelects x e) := by
  induction h with
  | list =>
    refine ⟨by rw [inLists_list, inLists_list]; exact hf _ x, ?_⟩
    constructor
    · exact fun h => absurd h (inSelects_other (by rintro ⟨_, _, _, _, _, _, _, _, _, _, _, _, _, e⟩; cases e) (by intros; simp))
    · exact fun h => absurd h (inSelects_other (by rintro ⟨_, _, _, _, _, _, _, _, _, _, _, _, _, e⟩; cases e) (by intros; simp))
  | left _ ih =>
    refine ⟨?_, by rw [inSelects_plus, inSelects_plus, ih.2]⟩
    rw [inLists_plus, inLists_plus, ih.1]; exact or_assoc
  | right _ _ ih =>
    refine ⟨?_, by rw [inSelects_plus, inSelects_plus, ih.2]⟩
    rw [inLists_plus, inLists_plus, ih.1]; exact or_left_comm

theorem addTo_inLists (item : Expr) (sorted : Bool) (e x : Expr) :
    (InLists x (addTo item sorted e) ↔ x = item ∨ InLists x e) ∧ (InSelects x (addTo item sorted e) ↔ InSelects x e) := by
  rcases addTo_spec item sorted e with h | ⟨h, e1⟩
  · exact firstEdit_inLists (mem_put sorted item) h x
  · rw [e1, inLists_plus, inSelects_plus, inLists_list, List.mem_singleton]
    refine ⟨or_comm, ?_⟩
    constructor
    · rintro (h | h)
      · exact h
      · exact absurd h (inSelects_other (by rintro ⟨_, _, _, _, _, _, _, _, _, _, _, _, _, e⟩; cases e) (by intros; simp))
    · exact .inl

theorem listFind_iff (e : Expr) (item pkg : Bytes) :
    (listFind e item pkg).isSome = true ↔ ∃ x, InLists x e ∧ SameLabel item pkg x := by
  simp only [listFind, listsFind, List.findSome?_isSome_iff, List.mem_flatten]
  constructor
  · rintro ⟨x, hx, h⟩
    refine ⟨x, (mem_allLists e x).mp hx, ?_⟩
    split at h
    · rename_i s
      split at h
      · rename_i hc; exact ⟨s, rfl, hc⟩
      · cases h
    · cases h
  · rintro ⟨x, hx, s, rfl, hs⟩
    exact ⟨_, (mem_allLists e _).mpr hx, by simp [hs]⟩

/-- the item is a string: what it means to have it already -/
def Has (s : StringN) (pkg : Bytes) (e : Expr) : Prop := ∃ x, InLists x e ∧ SameLabel s.value pkg x

open Classical in
/-- **C29 (exact, strings).** If a list operand has the label already, nothing changes. Otherwise the label disappears from
the select branches (unless protected by comments), and is put into the first list operand, or into a new list that is
appended if there is none. -/
theorem C29_exact (dwc : Bool) (e : Expr) (pkg : Bytes) (s : StringN) (sorted : Bool) (hn : e.isNil = false) :
    (Has s pkg e → addValueToList dwc e pkg (.string s) sorted = e) ∧
    (¬ Has s pkg e → ∃ e1,
      ListsEdit (fun l l' => l' = l) (fun l l' => l' = l.filter (fun x => decide (¬ Removed dwc s.value pkg x))) e e1 ∧
      (FirstListEdit (put sorted (.string s)) e1 (addValueToList dwc e pkg (.string s) sorted) ∨
       ((∀ c p l t m, ¬ Operand (.list c p l t m) e1) ∧ addValueToList dwc e pkg (.string s) sorted =
          .binary {} e1 {} b!"+" false (.list {} {} [.string s] {} false)))) := by
  unfold addValueToList
  simp only [hn, Bool.false_eq_true, if_false]
  constructor
  · intro h; rw [if_pos ((listFind_iff e s.value pkg).mpr h)]
  · intro h
    rw [if_neg (fun hc => h ((listFind_iff e s.value pkg).mp hc))]
    exact ⟨_, selectDelete_edit dwc s.value pkg e, addTo_spec _ _ _⟩

/-- **C29 (exact, other items).** An item that is not a string is always added. -/
theorem C29_exact_other (dwc : Bool) (e : Expr) (pkg : Bytes) (item : Expr) (hi : ∀ s, item ≠ .string s) (sorted : Bool)
    (hn : e.isNil = false) :
    FirstListEdit (put sorted item) e (addValueToList dwc e pkg item sorted) ∨
    ((∀ c p l t m, ¬ Operand (.list c p l t m) e) ∧ addValueToList dwc e pkg item sorted =
        .binary {} e {} b!"+" false (.list {} {} [item] {} false)) := by
  have : addValueToList dwc e pkg item sorted = addTo item sorted e := by
    unfold addValueToList
    simp only [hn, Bool.false_eq_true, if_false]
  rw [this]
  exact addTo_spec item sorted e

theorem equal_refl (a pkg : Bytes) : Labels.equal a a pkg = true := by simp [Labels.equal]

/-- **C29 (no value yet).** -/
theorem C29_nil (dwc : Bool) (pkg : Bytes) (item : Expr) (sorted : Bool) :
    addValueToList dwc .nil pkg item sorted = .list {} {} [item] {} false := rfl

/-- **C29 (present and complete).** After adding a string: its label is in a list operand; every element of a list operand is
still there; every element of a select branch is still there unless it has the added label; and nothing else has appeared. -/
theorem C29_elements (dwc : Bool) (e : Expr) (pkg : Bytes) (s : StringN) (sorted : Bool) (hn : e.isNil = false) :
    Has s pkg (addValueToList dwc e pkg (.string s) sorted) ∧
    (∀ x, InLists x e → InLists x (addValueToList dwc e pkg (.string s) sorted)) ∧
    (∀ x, InSelects x e → ¬ SameLabel s.value pkg x → InSelects x (addValueToList dwc e pkg (.string s) sorted)) ∧
    (∀ x, InLists x (addValueToList dwc e pkg (.string s) sorted) → x = .string s ∨ InLists x e) ∧
    (∀ x, InSelects x (addValueToList dwc e pkg (.string s) sorted) → InSelects x e) := by
  by_cases h : Has s pkg e
  · rw [(C29_exact dwc e pkg s sorted hn).1 h]
    exact ⟨h, fun _ h => h, fun _ h _ => h, fun _ h => .inr h, fun _ h => h⟩
  · have e1 : addValueToList dwc e pkg (.string s) sorted = addTo (.string s) sorted (selectDelete dwc s.value pkg e) := by
      unfold addValueToList
      simp only [hn, Bool.false_eq_true, if_false]
      rw [if_neg (fun hc => h ((listFind_iff e s.value pkg).mp hc))]
    rw [e1]
    have hed := selectDelete_edit dwc s.value pkg e
    have hL : ∀ x, InLists x (selectDelete dwc s.value pkg e) ↔ InLists x e := by
      intro x
      have := filter_inLists (P := fun _ => True) (hed.imp (fun l l' h x => by rw [h]; simp) (fun _ _ h => h)) x
      simpa using this
    have hS : ∀ x, InSelects x (selectDelete dwc s.value pkg e) ↔ InSelects x e ∧ ¬ Removed dwc s.value pkg x := by
      intro x
      exact filter_inSelects (P := fun x => ¬ Removed dwc s.value pkg x)
        (hed.imp (fun _ _ h => h) (fun l l' h x => by rw [h, List.mem_filter]; simp)) x
    refine ⟨⟨.string s, ((addTo_inLists _ _ _ _).1).mpr (.inl rfl), s, rfl, equal_refl _ _⟩, ?_, ?_, ?_, ?_⟩
    · intro x hx; exact ((addTo_inLists _ _ _ _).1).mpr (.inr ((hL x).mpr hx))
    · intro x hx hns
      refine ((addTo_inLists _ _ _ _).2).mpr ((hS x).mpr ⟨hx, ?_⟩)
      rintro ⟨s', hx', hq, _⟩
      exact hns ⟨s', hx', hq⟩
    · intro x hx
      rcases ((addTo_inLists _ _ _ _).1).mp hx with h | h
      · exact .inl h
      · exact .inr ((hL x).mp h)
    · intro x hx; exact ((hS x).mp (((addTo_inLists _ _ _ _).2).mp hx)).1

theorem addTo_notNil (item : Expr) (sorted : Bool) (e : Expr) : (addTo item sorted e).isNil = false := by
  rcases addTo_spec item sorted e with h | ⟨_, h⟩
  · generalize addTo item sorted e = e' at h; cases h <;> rfl
  · rw [h]; rfl

/-- **C29 (idempotent).** Adding a string a second time changes nothing. -/
theorem C29_idempotent (dwc : Bool) (e : Expr) (pkg : Bytes) (s : StringN) (sorted sorted' : Bool) :
    addValueToList dwc (addValueToList dwc e pkg (.string s) sorted) pkg (.string s) sorted' =
      addValueToList dwc e pkg (.string s) sorted := by
  cases hn : e.isNil with
  | true =>
    rw [show e = .nil by cases e <;> simp_all [Expr.isNil], C29_nil]
    exact (C29_exact dwc _ pkg s sorted' rfl).1 ⟨.string s, inLists_list.mpr (by simp), s, rfl, equal_refl _ _⟩
  | false =>
    have hn' : (addValueToList dwc e pkg (.string s) sorted).isNil = false := by
      unfold addValueToList
      simp only [hn, Bool.false_eq_true, if_false]
      split
      · exact hn
      · exact addTo_notNil _ _ _
    exact (C29_exact dwc _ pkg s sorted' hn').1 (C29_elements dwc e pkg s sorted hn).1

example : addValueToList true exDeps b!"p" (.string { value := b!"//p:b" }) true = exDeps := rfl
example : addValueToList true exDeps b!"p" (.string { value := b!":aa" }) true =
  .binary {} (.list {} {} [.string { value := b!":a" }, .string { value := b!":aa" }, .string { value := b!"//p:b" }] {} false) {} b!"+" false
    (.call {} (.ident { name := b!"select" }) {} [.dict {} {} [.keyValue {} (.string { value := b!"c" }) {}
      (.list {} {} [.string { value := b!"//p:a", comments := { before := [{ token := b!"# keep" }] } }, .string { value := b!"b" }] {} false)] {} false] {} false false) := rfl

end Verif.Props.ListEdit
