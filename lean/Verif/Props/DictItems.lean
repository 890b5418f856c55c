import Verif.Model.Cosmetic
import Verif.Proofs.MapE
import Verif.Proofs.Sort
import Verif.Props.Warn
/-
C75: the unsorted-dict-items check and its fix.
-/
namespace Verif.Cosmetic
open Verif Verif.Syntax Verif.Walk Verif.Edit

/-! ### specification -/

/-- the text of the key of an entry, if the key is a string literal -/
def litKey : Expr → Option Bytes
  | .keyValue _ (.string s) _ _ => some s.value
  | _ => none

/-- a key that begins with an underscore -/
def Private (k : Bytes) : Prop := ∃ t, k = b!"_" ++ t

/-- The order of keys: public keys before private ones, `//conditions:default` after all other public keys, otherwise bytewise. -/
def KeyBefore (a b : Bytes) : Prop :=
  (¬ Private a ∧ Private b) ∨ (Private a ∧ Private b ∧ a < b) ∨
  (¬ Private a ∧ ¬ Private b ∧ a ≠ b!"//conditions:default" ∧ (b = b!"//conditions:default" ∨ a < b))

/-- `l'` is `l` with the entries whose key is a literal sorted: the other entries stay where they are, no entry is lost or added, the keys come in
order, and entries with the same key keep their order. -/
structure Arranged (l l' : List Expr) : Prop where
  perm : l'.Perm l
  fixed : ∀ (i : Nat) e, l[i]? = some e → litKey e = none → l'[i]? = some e
  sorted : l'.Pairwise fun a b => ∀ k1 k2, litKey a = some k1 → litKey b = some k2 → ¬ KeyBefore k2 k1
  stable : ∀ k, l'.filter (fun e => litKey e == some k) = l.filter (fun e => litKey e == some k)

/-- a comment of the node asks to leave dictionaries alone -/
def Marked (e : Expr) : Prop :=
  ∃ c ∈ e.comments.before ++ e.comments.suffix ++ e.comments.after, ∃ a b, toLower c.token = a ++ b!"@unsorted-dict-items" ++ b

/-- `w` is `v` or inside it, and no node on the way, from `v` to `w`, is marked -/
inductive Under : Expr → Expr → Prop
  | here (v) : ¬ Marked v → Under v v
  | child (v x w) : ¬ Marked v → x ∈ slots v → Under x w → Under v w

/-- the entry comes in `l` right after an entry that should come later (entries whose key is no literal do not count) -/
def Misplaced (l : List Expr) (item : Expr) : Prop :=
  ∃ pre a mid post k1 k2, l = pre ++ a :: mid ++ item :: post ∧ (∀ x ∈ mid, litKey x = none) ∧
    litKey a = some k1 ∧ litKey item = some k2 ∧ KeyBefore k2 k1

/-- `w` is `v` with every dictionary arranged that is not marked and not inside a marked node (`skip`: `v` is inside a marked node) -/
inductive Fixed : Bool → Expr → Expr → Prop
  | load (skip c p m f t r b) : Fixed skip (.load c p m f t r b) (.load c p m f t r b)
  | dict (c p l l' ks e f) : ¬ Marked (.dict c p l e f) → Arranged l l' → Forall2 (Fixed false) l' ks →
      Fixed false (.dict c p l e f) (.dict c p ks e f)
  | marked (skip v ks) : (∀ c p m f t r b, v ≠ .load c p m f t r b) → (skip = true ∨ Marked v) → Forall2 (Fixed true) (slots v) ks →
      Fixed skip v (withSlots v ks)
  | other (v ks) : (∀ c p m f t r b, v ≠ .load c p m f t r b) → (∀ c p l e f, v ≠ .dict c p l e f) → ¬ Marked v →
      Forall2 (Fixed false) (slots v) ks → Fixed false v (withSlots v ks)

/-! ### keys -/

theorem strLess_lt (a b : Bytes) : strLess a b = true ↔ a < b := by
  unfold strLess
  induction a generalizing b with
  | nil => cases b <;> simp [lexLess]
  | cons x a ih =>
    cases b with
    | nil => simp [lexLess]
    | cons y b =>
      simp only [lexLess, List.cons_lt_cons_iff]
      by_cases h : x = y
      · subst h; simp [ih]
      · simp [h]

theorem litKey_eq (e : Expr) : litKey e = itemKey e := by
  unfold litKey itemKey; rfl

theorem private_iff (k : Bytes) : hasPrefix k b!"_" = true ↔ Private k := by
  simp only [hasPrefix, List.isPrefixOf_iff_prefix, Private]
  constructor
  · rintro ⟨t, h⟩; exact ⟨t, h.symm⟩
  · rintro ⟨t, h⟩; exact ⟨t, h.symm⟩

theorem compareKeys_iff (a b : Bytes) : compareKeys a b = true ↔ KeyBefore a b := by
  unfold compareKeys KeyBefore
  rw [← private_iff a, ← private_iff b]
  by_cases ha : hasPrefix a b!"_" = true <;> by_cases hb : hasPrefix b b!"_" = true <;>
    simp only [ha, hb, Bool.not_eq_true] at * <;>
    by_cases h1 : a = b!"//conditions:default" <;> by_cases h2 : b = b!"//conditions:default" <;>
    simp [h1, h2, strLess_lt]

theorem compareKeys_total : TotalBy id compareKeys where
  irrefl a := by
    simp only [compareKeys, strLess_total.irrefl]
    split <;> simp
  trans a b c := by
    rw [compareKeys_iff, compareKeys_iff, compareKeys_iff]
    have ht : a < b → b < c → a < c := by
      rw [← strLess_lt, ← strLess_lt, ← strLess_lt]; exact strLess_total.trans a b c
    unfold KeyBefore
    rintro (⟨h1, h2⟩ | ⟨h1, h2, h3⟩ | ⟨h1, h2, h3, h4⟩) (⟨g1, g2⟩ | ⟨g1, g2, g3⟩ | ⟨g1, g2, g3, g4⟩)
    · exact absurd h2 g1
    · exact .inl ⟨h1, g2⟩
    · exact absurd h2 g1
    · exact absurd h2 g1
    · exact .inr (.inl ⟨h1, g2, ht h3 g3⟩)
    · exact absurd h2 g1
    · exact .inl ⟨h1, g2⟩
    · exact absurd g1 h2
    · refine .inr (.inr ⟨h1, g2, h3, ?_⟩)
      rcases h4 with rfl | h4
      · exact absurd rfl g3
      · rcases g4 with rfl | g4
        · exact .inl rfl
        · exact .inr (ht h4 g4)
  total a b h := by
    simp only [id] at h
    unfold compareKeys
    have ht := strLess_total.total a b h
    by_cases ha : hasPrefix a b!"_" = true <;> by_cases hb : hasPrefix b b!"_" = true <;> simp only [ha, hb]
    · simpa using ht
    · simp
    · simp
    · by_cases e1 : a = b!"//conditions:default" <;> by_cases e2 : b = b!"//conditions:default"
      · exact absurd (e1.trans e2.symm) h
      · simp [e1, e2]
      · simp [e1, e2]
      · simpa [e1, e2] using ht

theorem compareItems_weak : StrictWeak compareItems :=
  (compareKeys_total.comap fun e => (itemKey e).getD []).strictWeak (by
    intro a b c h
    simp only [id] at h
    simp [h])

/-! ### the entries of one dictionary -/

theorem misplaced_nil (s : List Expr) : misplacedItems s = [] ↔ Sorted compareItems s := by
  rw [← isSorted_iff compareItems_weak]
  induction s with
  | nil => simp [misplacedItems, isSorted]
  | cons a l ih =>
    cases l with
    | nil => simp [misplacedItems, isSorted]
    | cons b l =>
      simp only [misplacedItems, isSorted, List.append_eq_nil_iff, ih, Bool.and_eq_true, Bool.not_eq_true']
      by_cases h : compareItems b a = true <;> simp [h]

theorem stringItems_cons (e : Expr) (l : List Expr) :
    stringItems (e :: l) = if (itemKey e).isSome then e :: stringItems l else stringItems l := by
  simp only [stringItems, List.filter_cons]

theorem refill_length (l s : List Expr) : (refill l s).length = l.length := by
  induction l generalizing s with
  | nil => rfl
  | cons e l ih =>
    unfold refill
    split
    · cases s <;> simp [ih]
    · simp [ih]

theorem refill_fixed (l s : List Expr) (i : Nat) (e : Expr) (h : l[i]? = some e) (hk : itemKey e = none) : (refill l s)[i]? = some e := by
  induction l generalizing s i with
  | nil => simp at h
  | cons x l ih =>
    unfold refill
    cases i with
    | zero =>
      simp only [List.getElem?_cons_zero, Option.some.injEq] at h
      subst h
      simp [hk]
    | succ i =>
      simp only [List.getElem?_cons_succ] at h
      split
      · cases s <;> simpa using ih _ i h
      · simpa using ih _ i h

theorem refill_strings (l s : List Expr) (hs : ∀ x ∈ s, (itemKey x).isSome = true) (hl : s.length = (stringItems l).length) :
    stringItems (refill l s) = s := by
  induction l generalizing s with
  | nil =>
    simp only [stringItems, List.filter_nil, List.length_nil] at hl
    rw [List.eq_nil_of_length_eq_zero hl]; rfl
  | cons e l ih =>
    rw [stringItems_cons] at hl
    unfold refill
    split
    next h =>
      rw [if_pos h] at hl
      cases s with
      | nil => simp at hl
      | cons x s =>
        simp only [List.length_cons, Nat.add_right_cancel_iff] at hl
        simp only [stringItems_cons, hs x List.mem_cons_self, if_true]
        rw [ih s (fun y hy => hs y (List.mem_cons_of_mem _ hy)) hl]
    next h =>
      rw [if_neg h] at hl
      simp only [stringItems_cons, h]
      simpa using ih s hs hl

theorem refill_others (l s : List Expr) (hs : ∀ x ∈ s, (itemKey x).isSome = true) :
    (refill l s).filter (fun e => (itemKey e).isNone) = l.filter (fun e => (itemKey e).isNone) := by
  induction l generalizing s with
  | nil => rfl
  | cons e l ih =>
    unfold refill
    split
    next h =>
      cases s with
      | nil => simp only [List.filter_cons, ih [] hs]
      | cons x s =>
        have hx := hs x List.mem_cons_self
        rw [Option.isSome_iff_ne_none] at h hx
        simp only [List.filter_cons, Option.isNone_iff_eq_none, h, hx, if_false]
        exact ih s (fun y hy => hs y (List.mem_cons_of_mem _ hy))
    next h => simp only [List.filter_cons, ih s hs]

theorem filter_split_perm (p : Expr → Bool) (l : List Expr) : (l.filter p ++ l.filter (fun e => !p e)).Perm l := by
  induction l with
  | nil => simp
  | cons e l ih =>
    by_cases h : p e = true
    · simp only [List.filter_cons, h, if_true, Bool.not_true, Bool.false_eq_true, if_false, List.cons_append]
      exact ih.cons e
    · simp only [List.filter_cons, h, if_false, Bool.not_false, Bool.false_eq_true, if_true]
      exact (List.perm_middle.trans (ih.cons e))

theorem key_filter (l : List Expr) (k : Bytes) : l.filter (fun e => itemKey e == some k) = (stringItems l).filter (fun e => itemKey e == some k) := by
  simp only [stringItems, List.filter_filter]
  congr 1
  funext e
  cases h : itemKey e <;> simp

/-- sortedness only depends on the entries with a literal key -/
theorem sorted_strings (l : List Expr) :
    (l.Pairwise fun a b => ∀ k1 k2, itemKey a = some k1 → itemKey b = some k2 → ¬ KeyBefore k2 k1) ↔ Sorted compareItems (stringItems l) := by
  unfold Sorted
  induction l with
  | nil => simp [stringItems]
  | cons a l ih =>
    rw [List.pairwise_cons, stringItems_cons, ih]
    cases ha : itemKey a with
    | none => simp
    | some k1 =>
      simp only [Option.isSome_some, if_true, List.pairwise_cons, and_congr_left_iff]
      intro _
      constructor
      · intro h b hb
        simp only [stringItems, List.mem_filter] at hb
        obtain ⟨k2, hk⟩ := Option.isSome_iff_exists.1 hb.2
        have := h b hb.1 k1 k2 rfl hk
        rw [← compareKeys_iff] at this
        simpa [compareItems, ha, hk] using this
      · intro h b hb k1' k2 e hk
        cases e
        have := h b (by simp [stringItems, hb, hk])
        rw [← compareKeys_iff]
        simpa [compareItems, ha, hk] using this

theorem refill_arranged (l s : List Expr) (hs : s.Perm (stringItems l)) (hsort : Sorted compareItems s)
    (hst : ∀ k, s.filter (fun e => itemKey e == some k) = (stringItems l).filter (fun e => itemKey e == some k)) : Arranged l (refill l s) := by
  have hmem : ∀ x ∈ s, (itemKey x).isSome = true := fun x hx => by
    have := hs.mem_iff.1 hx
    simp only [stringItems, List.mem_filter] at this
    exact this.2
  have hstr := refill_strings l s hmem hs.length_eq
  refine ⟨?_, ?_, ?_, ?_⟩
  · refine (filter_split_perm (fun e => (itemKey e).isSome) _).symm.trans (List.Perm.trans ?_ (filter_split_perm (fun e => (itemKey e).isSome) l))
    simp only [Option.not_isSome]
    rw [refill_others l s hmem]
    refine List.Perm.append_right _ ?_
    show (stringItems (refill l s)).Perm (stringItems l)
    rw [hstr]; exact hs
  · intro i e h hk
    rw [litKey_eq] at hk
    exact refill_fixed l s i e h hk
  · simp only [litKey_eq]
    rw [sorted_strings, hstr]; exact hsort
  · intro k
    simp only [litKey_eq]
    rw [key_filter, hstr, hst, ← key_filter]

theorem sortItems_arranged (l : List Expr) : Arranged l (sortItems l) := by
  unfold sortItems
  split
  next h =>
    have hs := (misplaced_nil _).1 (List.eq_nil_of_length_eq_zero h)
    refine ⟨List.Perm.refl _, fun i e h _ => h, ?_, fun _ => rfl⟩
    simp only [litKey_eq]
    exact (sorted_strings l).2 hs
  next h =>
    refine refill_arranged l _ (sortBy_perm _ _) (sortBy_sorted compareItems_weak _) fun k => ?_
    refine sortBy_filter _ (fun a b hab ha => ?_) _
    simp only [beq_iff_eq] at ha
    apply Bool.eq_false_iff.2
    intro hb
    simp only [beq_iff_eq] at hb
    simp only [compareItems, ha, hb, Option.getD_some, compareKeys_total.irrefl] at hab
    cases hab

/-- two sorted lists with the same entries for every key are the same -/
theorem sorted_classes : ∀ s1 s2 : List Expr, (∀ x ∈ s1, (itemKey x).isSome = true) → (∀ x ∈ s2, (itemKey x).isSome = true) →
    Sorted compareItems s1 → Sorted compareItems s2 →
    (∀ k, s1.filter (fun e => itemKey e == some k) = s2.filter (fun e => itemKey e == some k)) → s1 = s2 := by
  intro s1
  induction s1 with
  | nil =>
    intro s2 _ h2 _ _ hf
    cases s2 with
    | nil => rfl
    | cons b s2 =>
      obtain ⟨k, hk⟩ := Option.isSome_iff_exists.1 (h2 b List.mem_cons_self)
      have := hf k
      simp [hk] at this
  | cons a s1 ih =>
    intro s2 h1 h2 hs1 hs2 hf
    obtain ⟨ka, hka⟩ := Option.isSome_iff_exists.1 (h1 a List.mem_cons_self)
    cases s2 with
    | nil =>
      have := hf ka
      simp [hka] at this
    | cons b s2 =>
      obtain ⟨kb, hkb⟩ := Option.isSome_iff_exists.1 (h2 b List.mem_cons_self)
      by_cases hk : ka = kb
      · subst hk
        have h := hf ka
        simp only [List.filter_cons, hka, hkb, beq_self_eq_true, if_true, List.cons.injEq] at h
        obtain ⟨rfl, h⟩ := h
        congr 1
        refine ih s2 (fun x hx => h1 x (List.mem_cons_of_mem _ hx)) (fun x hx => h2 x (List.mem_cons_of_mem _ hx))
          (List.pairwise_cons.1 hs1).2 (List.pairwise_cons.1 hs2).2 fun k => ?_
        have hfk := hf k
        simp only [List.filter_cons] at hfk
        split at hfk
        · simpa using hfk
        · exact hfk
      · exfalso
        have ma : a ∈ s2 := by
          have : a ∈ (b :: s2).filter (fun e => itemKey e == some ka) := by rw [← hf ka]; simp [hka]
          simp only [List.mem_filter, List.mem_cons] at this
          rcases this.1 with rfl | h
          · rw [hkb] at hka; cases hka; exact absurd rfl hk
          · exact h
        have mb : b ∈ s1 := by
          have : b ∈ (a :: s1).filter (fun e => itemKey e == some kb) := by rw [hf kb]; simp [hkb]
          simp only [List.mem_filter, List.mem_cons] at this
          rcases this.1 with rfl | h
          · rw [hka] at hkb; cases hkb; exact absurd rfl hk
          · exact h
        have c1 := (List.pairwise_cons.1 hs1).1 b mb
        have c2 := (List.pairwise_cons.1 hs2).1 a ma
        simp only [compareItems, hka, hkb, Option.getD_some] at c1 c2
        rcases compareKeys_total.total ka kb hk with h | h
        · rw [h] at c2; cases c2
        · rw [h] at c1; cases c1

/-- a list is determined by its entries with a literal key and the places of the others -/
theorem list_ext_fixed : ∀ l1 l2 : List Expr, l1.length = l2.length → (∀ (i : Nat) e, l1[i]? = some e → itemKey e = none → l2[i]? = some e) →
    (∀ (i : Nat) e, l2[i]? = some e → itemKey e = none → l1[i]? = some e) → stringItems l1 = stringItems l2 → l1 = l2 := by
  intro l1
  induction l1 with
  | nil => intro l2 h; cases l2 <;> simp_all
  | cons a l1 ih =>
    intro l2 hl h1 h2 hs
    cases l2 with
    | nil => simp at hl
    | cons b l2 =>
      simp only [List.length_cons, Nat.add_right_cancel_iff] at hl
      have t1 := fun (i : Nat) e h => by simpa using h1 (i + 1) e h
      have t2 := fun (i : Nat) e h => by simpa using h2 (i + 1) e h
      simp only [List.getElem?_cons_succ] at t1 t2
      rw [stringItems_cons, stringItems_cons] at hs
      cases ha : itemKey a with
      | none =>
        have := h1 0 a (by simp) ha
        simp only [List.getElem?_cons_zero, Option.some.injEq] at this
        subst this
        simp only [ha] at hs
        rw [ih l2 hl t1 t2 (by simpa using hs)]
      | some k =>
        cases hb : itemKey b with
        | none =>
          have := h2 0 b (by simp) hb
          simp only [List.getElem?_cons_zero, Option.some.injEq] at this
          subst this
          rw [ha] at hb; cases hb
        | some k' =>
          simp only [ha, hb, Option.isSome_some, if_true, List.cons.injEq] at hs
          rw [hs.1, ih l2 hl t1 t2 hs.2]

theorem fixed_length {l l' : List Expr} (h : Arranged l l') : l'.length = l.length := h.perm.length_eq

/-- an arrangement has other entries only where the list has them -/
theorem arranged_back {l l' : List Expr} (h : Arranged l l') : ∀ (i : Nat) e, l'[i]? = some e → itemKey e = none → l[i]? = some e := by
  have key : ∀ l l' : List Expr, l'.length = l.length → (∀ (i : Nat) e, l[i]? = some e → itemKey e = none → l'[i]? = some e) →
      (l'.filter fun e => (itemKey e).isNone).length ≤ (l.filter fun e => (itemKey e).isNone).length →
      ∀ (i : Nat) e, l'[i]? = some e → itemKey e = none → l[i]? = some e := by
    intro l
    induction l with
    | nil => intro l' hl _ _ i e hi; rw [List.eq_nil_of_length_eq_zero hl] at hi; simp at hi
    | cons a l ih =>
      intro l' hl h1 hc i e hi he
      cases l' with
      | nil => simp at hl
      | cons b l' =>
        simp only [List.length_cons, Nat.add_right_cancel_iff] at hl
        have t1 := fun (i : Nat) e h => by simpa using h1 (i + 1) e h
        simp only [List.getElem?_cons_succ] at t1
        have cnt : (l.filter fun e => (itemKey e).isNone).length ≤ (l'.filter fun e => (itemKey e).isNone).length := by
          clear ih hc hi h1
          induction l generalizing l' with
          | nil => simp
          | cons x l ih' =>
            cases l' with
            | nil => simp at hl
            | cons y l' =>
              simp only [List.length_cons, Nat.add_right_cancel_iff] at hl
              have t2 := fun (i : Nat) e h => by simpa using t1 (i + 1) e h
              simp only [List.getElem?_cons_succ] at t2
              have := ih' l' hl t2
              cases hx : itemKey x with
              | some k => cases hy : itemKey y <;> simp [hx, hy] <;> omega
              | none =>
                have hy := t1 0 x (by simp) hx
                simp only [List.getElem?_cons_zero, Option.some.injEq] at hy
                subst hy
                simp only [List.filter_cons, hx]; simpa using this
        cases ha : itemKey a with
        | none =>
          have hb := h1 0 a (by simp) ha
          simp only [List.getElem?_cons_zero, Option.some.injEq] at hb
          subst hb
          cases i with
          | zero => exact hi
          | succ i =>
            simp only [List.filter_cons, ha] at hc
            simp only [List.getElem?_cons_succ] at hi ⊢
            exact ih l' hl t1 (by simpa using hc) i e hi he
        | some k =>
          simp only [List.filter_cons, ha] at hc
          cases hb : itemKey b with
          | none =>
            simp only [hb] at hc
            simp at hc
            omega
          | some k' =>
            simp only [hb] at hc
            cases i with
            | zero =>
              simp only [List.getElem?_cons_zero, Option.some.injEq] at hi
              subst hi; rw [hb] at he; cases he
            | succ i =>
              simp only [List.getElem?_cons_succ] at hi ⊢
              exact ih l' hl t1 (by simpa using hc) i e hi he
  refine key l l' (fixed_length h) (fun i e hi he => h.fixed i e hi (by rw [litKey_eq]; exact he)) ?_
  exact Nat.le_of_eq ((h.perm.filter _).length_eq)

theorem arranged_unique {l l1 l2 : List Expr} (h1 : Arranged l l1) (h2 : Arranged l l2) : l1 = l2 := by
  refine list_ext_fixed l1 l2 ((fixed_length h1).trans (fixed_length h2).symm)
    (fun i e hi he => h2.fixed i e (arranged_back h1 i e hi he) (by rw [litKey_eq]; exact he))
    (fun i e hi he => h1.fixed i e (arranged_back h2 i e hi he) (by rw [litKey_eq]; exact he)) ?_
  have s1 := h1.sorted
  have s2 := h2.sorted
  have e1 := h1.stable
  have e2 := h2.stable
  simp only [litKey_eq] at s1 s2 e1 e2
  refine sorted_classes _ _ (fun x hx => (List.mem_filter.1 hx).2) (fun x hx => (List.mem_filter.1 hx).2)
    ((sorted_strings l1).1 s1) ((sorted_strings l2).1 s2) fun k => ?_
  rw [← key_filter, ← key_filter, e1, e2]

/-! ### the traversal -/

theorem marked_iff (e : Expr) : mustSkip e = true ↔ Marked e := by
  unfold mustSkip containsComments Marked
  simp only [List.any_eq_true, Verif.Props.Warn.contains_iff]
  rfl

theorem misplaced_iff (l : List Expr) (item : Expr) : item ∈ misplacedItems (stringItems l) ↔ Misplaced l item := by
  have step : ∀ (a : Expr) (s : List Expr), item ∈ misplacedItems (a :: s) ↔
      (∃ b t, s = b :: t ∧ b = item ∧ compareItems b a = true) ∨ item ∈ misplacedItems s := by
    intro a s
    cases s with
    | nil => simp [misplacedItems]
    | cons b t =>
      simp only [misplacedItems, List.mem_append, List.cons.injEq]
      constructor
      · rintro (h | h)
        · split at h
          next hc => simp only [List.mem_singleton] at h; exact .inl ⟨b, t, ⟨rfl, rfl⟩, h.symm, hc⟩
          next => cases h
        · exact .inr h
      · rintro (⟨b', t', ⟨rfl, rfl⟩, rfl, hc⟩ | h)
        · left; rw [if_pos hc]; exact List.mem_singleton.2 rfl
        · exact .inr h
  have next : ∀ (l : List Expr) b t, stringItems l = b :: t ↔
      ∃ mid post, l = mid ++ b :: post ∧ (∀ x ∈ mid, itemKey x = none) ∧ (itemKey b).isSome = true ∧ stringItems post = t := by
    intro l
    induction l with
    | nil => intro b t; simp [stringItems]
    | cons e l ih =>
      intro b t
      rw [stringItems_cons]
      constructor
      · intro h
        split at h
        next he =>
          cases h
          exact ⟨[], l, rfl, by simp, he, rfl⟩
        next he =>
          obtain ⟨mid, post, rfl, h1, h2, h3⟩ := (ih b t).1 h
          refine ⟨e :: mid, post, rfl, ?_, h2, h3⟩
          intro x hx
          rcases List.mem_cons.1 hx with rfl | hx
          · simpa using he
          · exact h1 x hx
      · rintro ⟨mid, post, h, h1, h2, h3⟩
        cases mid with
        | nil =>
          cases h
          simp [h2, h3]
        | cons m mid =>
          cases h
          rw [h1 e List.mem_cons_self]
          simp only [Option.isSome_none, Bool.false_eq_true, if_false]
          exact (ih b t).2 ⟨mid, post, rfl, fun x hx => h1 x (List.mem_cons_of_mem _ hx), h2, h3⟩
  unfold Misplaced
  simp only [litKey_eq]
  induction l with
  | nil =>
    simp only [stringItems, List.filter_nil, misplacedItems, List.not_mem_nil, false_iff]
    rintro ⟨pre, a, mid, post, k1, k2, h, _⟩
    simp at h
  | cons a l ih =>
    rw [stringItems_cons]
    constructor
    · intro h
      have lift : item ∈ misplacedItems (stringItems l) → ∃ pre a' mid post k1 k2, a :: l = pre ++ a' :: mid ++ item :: post ∧
          (∀ x ∈ mid, itemKey x = none) ∧ itemKey a' = some k1 ∧ itemKey item = some k2 ∧ KeyBefore k2 k1 := by
        intro h
        obtain ⟨pre, a', mid, post, k1, k2, rfl, h'⟩ := ih.1 h
        exact ⟨a :: pre, a', mid, post, k1, k2, rfl, h'⟩
      split at h
      next ha =>
        rcases (step a _).1 h with ⟨b, t, hs, rfl, hc⟩ | h
        · obtain ⟨mid, post, rfl, h1, h2, h3⟩ := (next l b t).1 hs
          obtain ⟨k1, hk1⟩ := Option.isSome_iff_exists.1 ha
          obtain ⟨k2, hk2⟩ := Option.isSome_iff_exists.1 h2
          refine ⟨[], a, mid, post, k1, k2, rfl, h1, hk1, hk2, ?_⟩
          rw [← compareKeys_iff]
          simpa [compareItems, hk1, hk2] using hc
        · exact lift h
      next => exact lift h
    · rintro ⟨pre, a', mid, post, k1, k2, h, h1, hk1, hk2, hb⟩
      cases pre with
      | nil =>
        cases h
        simp only [hk1, Option.isSome_some, if_true]
        refine (step a _).2 (.inl ⟨item, stringItems post, ?_, rfl, ?_⟩)
        · exact (next _ _ _).2 ⟨mid, post, rfl, h1, by simp [hk2], rfl⟩
        · simpa [compareItems, hk1, hk2] using (compareKeys_iff _ _).2 hb
      | cons p pre =>
        cases h
        have hm := ih.2 ⟨pre, a', mid, post, k1, k2, rfl, h1, hk1, hk2, hb⟩
        split
        · exact (step a _).2 (.inr hm)
        · exact hm

theorem isNil_slots (v : Expr) (h : v.isNil = true) : v = .nil := by
  cases v <;> simp_all [Expr.isNil]

/-- the entries reported at the node itself -/
def here (skip : Bool) (v : Expr) : List Expr :=
  match v with
  | .dict _ _ l _ _ => if skip || mustSkip v then [] else misplacedItems (stringItems l)
  | _ => []

theorem unsortedN_succ (n : Nat) (skip : Bool) (v : Expr) :
    unsortedN (n + 1) skip v = here skip v ++ (slots v).flatMap (unsortedN n (skip || mustSkip v)) := by
  unfold unsortedN
  split
  next h => rw [isNil_slots v h]; rfl
  next h => rfl

theorem unsortedN_skip (n : Nat) (v : Expr) : unsortedN n true v = [] := by
  induction n generalizing v with
  | zero => rfl
  | succ n ih =>
    rw [unsortedN_succ]
    simp only [Bool.true_or, List.append_eq_nil_iff, List.flatMap_eq_nil_iff]
    refine ⟨?_, fun x _ => ih x⟩
    unfold here
    split <;> rfl

theorem unsortedN_iff (n : Nat) (v item : Expr) (hn : size v ≤ n) :
    item ∈ unsortedN n false v ↔ ∃ c p l e f, Under v (.dict c p l e f) ∧ Misplaced l item := by
  induction n generalizing v with
  | zero => have := size_pos v; omega
  | succ n ih =>
    rw [unsortedN_succ]
    by_cases hm : mustSkip v = true
    · have hmk := (marked_iff v).1 hm
      have h0 : here false v = [] := by unfold here; split <;> simp [hm]
      rw [h0, hm]
      have : (slots v).flatMap (unsortedN n (false || true)) = [] := by
        rw [List.flatMap_eq_nil_iff]; intro x _; exact unsortedN_skip n x
      rw [this]
      simp only [List.append_nil, List.not_mem_nil, false_iff]
      rintro ⟨c, p, l, e, f, hu, _⟩
      cases hu <;> contradiction
    · have hmk : ¬ Marked v := fun h => hm ((marked_iff v).2 h)
      have hmf : mustSkip v = false := by simpa using hm
      rw [hmf]
      simp only [Bool.or_false, List.mem_append, List.mem_flatMap]
      constructor
      · rintro (h | ⟨x, hx, h⟩)
        · unfold here at h
          split at h
          next c p l e f =>
            simp only [Bool.false_or, hmf, Bool.false_eq_true, if_false] at h
            exact ⟨c, p, l, e, f, .here _ hmk, (misplaced_iff l item).1 h⟩
          next => cases h
        · obtain ⟨c, p, l, e, f, hu, hi⟩ := (ih x (by have := size_slot_lt hx; omega)).1 h
          exact ⟨c, p, l, e, f, .child _ _ _ hmk hx hu, hi⟩
      · rintro ⟨c, p, l, e, f, hu, hi⟩
        cases hu with
        | here _ _ =>
          left
          unfold here
          simp only [Bool.false_or, hmf, Bool.false_eq_true, if_false]
          exact (misplaced_iff l item).2 hi
        | child _ x _ _ hx hu =>
          exact .inr ⟨x, hx, (ih x (by have := size_slot_lt hx; omega)).2 ⟨c, p, l, e, f, hu, hi⟩⟩

/-- **C75**: an entry is reported exactly if it is out of order in a dictionary that is not marked and not inside a marked node. -/
theorem C75_reported_exactly (v item : Expr) :
    item ∈ unsorted v ↔ ∃ c p l e f, Under v (.dict c p l e f) ∧ Misplaced l item :=
  unsortedN_iff _ v item (Nat.le_refl _)

/-- **C75**: a dictionary has an entry that is out of order exactly if its keys are not sorted. -/
theorem C75_misplaced (l : List Expr) :
    (∃ item, Misplaced l item) ↔
      ¬ l.Pairwise fun a b => ∀ k1 k2, litKey a = some k1 → litKey b = some k2 → ¬ KeyBefore k2 k1 := by
  simp only [litKey_eq]
  rw [sorted_strings, ← misplaced_nil, List.eq_nil_iff_forall_not_mem]
  simp only [misplaced_iff, Classical.not_forall, Classical.not_not]

/-! ### the fix -/

theorem comments_withSlots (v : Expr) (k : List Expr) (hk : k.length = (slots v).length) : (withSlots v k).comments = v.comments := by
  cases v with
  | nil => simp [slots] at hk; subst hk; rfl
  | commentBlock => simp [slots] at hk; subst hk; rfl
  | ident => simp [slots] at hk; subst hk; rfl
  | typedIdent => simp [slots] at hk; subst hk; rfl
  | branch => simp [slots] at hk; subst hk; rfl
  | literal => simp [slots] at hk; subst hk; rfl
  | string => simp [slots] at hk; subst hk; rfl
  | file => rfl
  | list => rfl
  | set => rfl
  | dict => rfl
  | tuple => rfl
  | lambda => rfl
  | defS => rfl
  | dot => match k, hk with | [x], h => rfl
  | paren => match k, hk with | [x], h => rfl
  | unary => match k, hk with | [x], h => rfl
  | ifClause => match k, hk with | [x], h => rfl
  | returnS => match k, hk with | [x], h => rfl
  | index => match k, hk with | [x, y], h => rfl
  | keyValue => match k, hk with | [x, y], h => rfl
  | binary => match k, hk with | [x, y], h => rfl
  | assign => match k, hk with | [x, y], h => rfl
  | forClause => match k, hk with | [x, y], h => rfl
  | cond => match k, hk with | [x, y, z], h => rfl
  | slice => match k, hk with | [x, y, z, w], h => rfl
  | call => match k, hk with | x :: l, h => rfl
  | compr => match k, hk with | x :: l, h => rfl
  | forS => match k, hk with | x :: y :: l, h => rfl
  | ifS => match k, hk with | y :: l, h => rfl
  | load => match k, hk with | y :: l, h => rfl

/-- a node with other slots is still no dictionary, no entry with a literal key -/
theorem dict_withSlots (v : Expr) (k : List Expr) (hk : k.length = (slots v).length) (hv : ∀ c p l e f, v ≠ .dict c p l e f)
    (c p l e f) : withSlots v k ≠ .dict c p l e f := by
  cases v with
  | nil => simp [slots] at hk; subst hk; simp [withSlots]
  | commentBlock => simp [slots] at hk; subst hk; simp [withSlots]
  | ident => simp [slots] at hk; subst hk; simp [withSlots]
  | typedIdent => simp [slots] at hk; subst hk; simp [withSlots]
  | branch => simp [slots] at hk; subst hk; simp [withSlots]
  | literal => simp [slots] at hk; subst hk; simp [withSlots]
  | string => simp [slots] at hk; subst hk; simp [withSlots]
  | dict => exact absurd rfl (hv _ _ _ _ _)
  | file => simp [withSlots]
  | list => simp [withSlots]
  | set => simp [withSlots]
  | tuple => simp [withSlots]
  | lambda => simp [withSlots]
  | defS => simp [withSlots]
  | dot => match k, hk with | [x], h => simp [withSlots]
  | paren => match k, hk with | [x], h => simp [withSlots]
  | unary => match k, hk with | [x], h => simp [withSlots]
  | ifClause => match k, hk with | [x], h => simp [withSlots]
  | returnS => match k, hk with | [x], h => simp [withSlots]
  | index => match k, hk with | [x, y], h => simp [withSlots]
  | keyValue => match k, hk with | [x, y], h => simp [withSlots]
  | binary => match k, hk with | [x, y], h => simp [withSlots]
  | assign => match k, hk with | [x, y], h => simp [withSlots]
  | forClause => match k, hk with | [x, y], h => simp [withSlots]
  | cond => match k, hk with | [x, y, z], h => simp [withSlots]
  | slice => match k, hk with | [x, y, z, w], h => simp [withSlots]
  | call => match k, hk with | x :: l, h => simp [withSlots]
  | compr => match k, hk with | x :: l, h => simp [withSlots]
  | forS => match k, hk with | x :: y :: l, h => simp [withSlots]
  | ifS => match k, hk with | y :: l, h => simp [withSlots]
  | load => match k, hk with | y :: l, h => simp [withSlots]

theorem fits_of_length {v : Expr} (h : ∀ c p m f t r b, v ≠ .load c p m f t r b) {k : List Expr} (hk : k.length = (slots v).length) : fits v k := by
  refine ⟨hk, ?_⟩
  cases v with
  | load c p m f t r b => exact absurd rfl (h c p m f t r b)
  | _ => trivial

theorem sortDictsN_dict (n : Nat) (skip : Bool) (c p l e f) :
    sortDictsN (n + 1) skip (.dict c p l e f) =
      .dict c p ((if skip || mustSkip (.dict c p l e f) then l else sortItems l).map (sortDictsN n (skip || mustSkip (.dict c p l e f)))) e f := rfl

theorem sortDictsN_other (n : Nat) (skip : Bool) (v : Expr) (h1 : ∀ c p m f t r b, v ≠ .load c p m f t r b) (h2 : ∀ c p l e f, v ≠ .dict c p l e f) :
    sortDictsN (n + 1) skip v = withSlots v ((slots v).map (sortDictsN n (skip || mustSkip v))) := by
  cases v with
  | load c p m f t r b => exact absurd rfl (h1 c p m f t r b)
  | dict c p l e f => exact absurd rfl (h2 c p l e f)
  | _ => rfl

theorem kinds (v : Expr) : (∃ c p m f t r b, v = .load c p m f t r b) ∨ (∃ c p l e f, v = .dict c p l e f) ∨
    ((∀ c p m f t r b, v ≠ .load c p m f t r b) ∧ (∀ c p l e f, v ≠ .dict c p l e f)) := by
  cases v with
  | load c p m f t r b => exact .inl ⟨c, p, m, f, t, r, b, rfl⟩
  | dict c p l e f => exact .inr (.inl ⟨c, p, l, e, f, rfl⟩)
  | _ => exact .inr (.inr ⟨fun _ _ _ _ _ _ _ => by simp, fun _ _ _ _ _ => by simp⟩)

theorem forall2_map {R : Expr → Expr → Prop} {g : Expr → Expr} : ∀ {l : List Expr}, (∀ x ∈ l, R x (g x)) → Forall2 R l (l.map g)
  | [], _ => .nil
  | x :: _, h => .cons (h x List.mem_cons_self) (forall2_map fun y hy => h y (List.mem_cons_of_mem _ hy))

theorem forall2_eq_map {R : Expr → Expr → Prop} {g : Expr → Expr} {l k : List Expr} (h : Forall2 R l k) :
    (∀ x ∈ l, ∀ y, R x y → y = g x) → k = l.map g := by
  induction h with
  | nil => intro _; rfl
  | cons h1 h2 ih =>
    intro hx
    rw [List.map_cons, ih fun x m => hx x (List.mem_cons_of_mem _ m), hx _ List.mem_cons_self _ h1]

theorem sortDictsN_fixed (n : Nat) (skip : Bool) (v : Expr) (hn : size v ≤ n) : Fixed skip v (sortDictsN n skip v) := by
  induction n generalizing skip v with
  | zero => have := size_pos v; omega
  | succ n ih =>
    have sub : ∀ x ∈ slots v, size x ≤ n := fun x hx => by have := size_slot_lt hx; omega
    rcases kinds v with ⟨c, p, m, f, t, r, b, rfl⟩ | ⟨c, p, l, e, f, rfl⟩ | ⟨h1, h2⟩
    · exact .load ..
    · rw [sortDictsN_dict]
      by_cases hs : (skip || mustSkip (.dict c p l e f)) = true
      · rw [hs]
        simp only [if_true]
        refine .marked skip (.dict c p l e f) (l.map (sortDictsN n true)) (by intros; simp) ?_ (forall2_map fun x hx => ih _ x (sub x hx))
        rw [← marked_iff]
        simpa using hs
      · simp only [Bool.not_eq_true, Bool.or_eq_false_iff] at hs
        obtain ⟨rfl, hm⟩ := hs
        rw [hm]
        simp only [Bool.or_false, Bool.false_eq_true, if_false]
        refine .dict c p l (sortItems l) _ e f (fun h => ?_) (sortItems_arranged l)
          (forall2_map fun x hx => ih _ x (sub x ((sortItems_arranged l).perm.mem_iff.1 hx)))
        rw [← marked_iff, hm] at h
        cases h
    · rw [sortDictsN_other n skip v h1 h2]
      by_cases hs : (skip || mustSkip v) = true
      · rw [hs]
        refine .marked skip v _ h1 ?_ (forall2_map fun x hx => ih _ x (sub x hx))
        rw [← marked_iff]
        simpa using hs
      · simp only [Bool.not_eq_true, Bool.or_eq_false_iff] at hs
        obtain ⟨rfl, hm⟩ := hs
        rw [hm]
        refine .other v _ h1 h2 (fun h => ?_) (forall2_map fun x hx => ih _ x (sub x hx))
        rw [← marked_iff, hm] at h
        cases h

theorem fixed_sortDictsN (n : Nat) (skip : Bool) (v w : Expr) (hn : size v ≤ n) (h : Fixed skip v w) : w = sortDictsN n skip v := by
  induction n generalizing skip v w with
  | zero => have := size_pos v; omega
  | succ n ih =>
    have sub : ∀ x ∈ slots v, size x ≤ n := fun x hx => by have := size_slot_lt hx; omega
    cases h with
    | load => rfl
    | dict c p l l' ks e f hm ha hk =>
      have hmf : mustSkip (.dict c p l e f) = false := by
        rw [← Bool.not_eq_true, marked_iff]; exact hm
      have hl := arranged_unique ha (sortItems_arranged l)
      subst hl
      rw [sortDictsN_dict, hmf]
      simp only [Bool.or_false, Bool.false_eq_true, if_false]
      rw [forall2_eq_map hk fun x hx y hy => ih false x y (sub x (ha.perm.mem_iff.1 hx)) hy]
    | marked _ _ ks h1 hs hk =>
      have hst : (skip || mustSkip v) = true := by
        rcases hs with rfl | hs
        · rfl
        · rw [(marked_iff v).2 hs, Bool.or_true]
      have hks := forall2_eq_map hk fun x hx y hy => ih true x y (sub x hx) hy
      subst hks
      rcases kinds v with ⟨c, p, m, f, t, r, b, rfl⟩ | ⟨c, p, l, e, f, rfl⟩ | ⟨_, h2⟩
      · exact absurd rfl (h1 _ _ _ _ _ _ _)
      · rw [sortDictsN_dict, hst]; rfl
      · rw [sortDictsN_other n skip v h1 h2, hst]
    | other _ ks h1 h2 hm hk =>
      have hmf : mustSkip v = false := by
        rw [← Bool.not_eq_true, marked_iff]; exact hm
      have hks := forall2_eq_map hk fun x hx y hy => ih false x y (sub x hx) hy
      subst hks
      rw [sortDictsN_other n false v h1 h2, hmf]; rfl

/-- **C75**: the fix turns a file into the file in which every dictionary that is not marked and not inside a marked node is arranged, and
nothing else is changed. -/
theorem C75_fix_exactly (v w : Expr) : Fixed false v w ↔ w = sortDicts v :=
  ⟨fixed_sortDictsN _ false v w (Nat.le_refl _), fun h => h ▸ sortDictsN_fixed _ false v (Nat.le_refl _)⟩

/-- **C75**: there is exactly one way to arrange the entries of a dictionary, and arranging entries that are in order changes nothing. -/
theorem C75_arrangement (l : List Expr) :
    (∃ l', Arranged l l') ∧ (∀ l1 l2, Arranged l l1 → Arranged l l2 → l1 = l2) ∧
    ((l.Pairwise fun a b => ∀ k1 k2, litKey a = some k1 → litKey b = some k2 → ¬ KeyBefore k2 k1) ↔ Arranged l l) :=
  ⟨⟨_, sortItems_arranged l⟩, fun _ _ => arranged_unique, fun h => ⟨List.Perm.refl _, fun _ _ h _ => h, h, fun _ => rfl⟩, fun h => h.sorted⟩

theorem mustSkip_sortDictsN (n : Nat) (skip : Bool) (v : Expr) : mustSkip (sortDictsN n skip v) = mustSkip v := by
  cases n with
  | zero => rfl
  | succ n =>
    rcases kinds v with ⟨c, p, m, f, t, r, b, rfl⟩ | ⟨c, p, l, e, f, rfl⟩ | ⟨h1, h2⟩
    · rfl
    · rfl
    · rw [sortDictsN_other n skip v h1 h2]
      simp only [mustSkip, containsComments]
      rw [comments_withSlots _ _ (by simp)]

theorem itemKey_sortDictsN (n : Nat) (skip : Bool) (v : Expr) : itemKey (sortDictsN n skip v) = itemKey v := by
  cases n with
  | zero => rfl
  | succ n =>
    cases v with
    | keyValue c k p x =>
      cases n with
      | zero => rfl
      | succ n =>
        rw [sortDictsN_other _ _ _ (by intros; simp) (by intros; simp)]
        simp only [slots, List.map_cons, List.map_nil, withSlots]
        cases k <;> rfl
    | _ => rfl

theorem unsortedN_sortDictsN (m n : Nat) (skip : Bool) (v : Expr) (hm : size v ≤ m) : unsortedN n skip (sortDictsN m skip v) = [] := by
  induction m generalizing n skip v with
  | zero => have := size_pos v; omega
  | succ m ih =>
    cases n with
    | zero => rfl
    | succ n =>
      have sub : ∀ x ∈ slots v, size x ≤ m := fun x hx => by have := size_slot_lt hx; omega
      rw [unsortedN_succ, mustSkip_sortDictsN, List.append_eq_nil_iff, List.flatMap_eq_nil_iff]
      rcases kinds v with ⟨c, p, mo, f, t, r, b, rfl⟩ | ⟨c, p, l, e, f, rfl⟩ | ⟨h1, h2⟩
      · refine ⟨rfl, fun x hx => ?_⟩
        have hx' : x ∈ slots (.load c p mo f t r b) := hx
        have leaf : ∀ f t : List IdentN, ∀ x ∈ interleave f t, ∃ i, x = .ident i := by
          intro f
          induction f with
          | nil => intro t x hx; cases t <;> simp [interleave] at hx
          | cons a f ihf =>
            intro t x hx
            cases t with
            | nil => simp [interleave] at hx
            | cons b t =>
              simp only [interleave, List.mem_cons] at hx
              rcases hx with rfl | rfl | hx
              · exact ⟨_, rfl⟩
              · exact ⟨_, rfl⟩
              · exact ihf t x hx
        simp only [slots, List.mem_cons] at hx'
        rcases hx' with rfl | hx'
        · cases n <;> rfl
        · obtain ⟨i, rfl⟩ := leaf f t x hx'
          cases n <;> rfl
      · rw [sortDictsN_dict]
        constructor
        · have hmd : ∀ l', mustSkip (.dict c p l' e f) = mustSkip (.dict c p l e f) := fun _ => rfl
          simp only [here]
          rw [hmd]
          cases hsk : (skip || mustSkip (.dict c p l e f)) with
          | true => rfl
          | false =>
            simp only [Bool.false_eq_true, if_false]
            rw [misplaced_nil, ← sorted_strings, List.pairwise_map]
            simp only [itemKey_sortDictsN]
            have := (sortItems_arranged l).sorted
            simp only [litKey_eq] at this
            exact this
        · intro x hx
          simp only [slots, List.mem_map] at hx
          obtain ⟨y, hy, rfl⟩ := hx
          refine ih n _ y (sub y ?_)
          split at hy
          · exact hy
          · exact (sortItems_arranged l).perm.mem_iff.1 hy
      · rw [sortDictsN_other m skip v h1 h2]
        constructor
        · unfold here
          split
          next heq => exact absurd heq (dict_withSlots v _ (by simp) h2 _ _ _ _ _)
          next => rfl
        · intro x hx
          rw [slots_withSlots v _ (fits_of_length h1 (by simp)), List.mem_map] at hx
          obtain ⟨y, hy, rfl⟩ := hx
          exact ih n _ y (sub y hy)

/-- **C75**: after the fix nothing is reported. -/
theorem C75_clean (v : Expr) : unsorted (sortDicts v) = [] := unsortedN_sortDictsN _ _ false v (Nat.le_refl _)

theorem sortDictsN_id (n : Nat) (skip : Bool) (v : Expr) (h : unsortedN n skip v = []) : sortDictsN n skip v = v := by
  induction n generalizing skip v with
  | zero => rfl
  | succ n ih =>
    rw [unsortedN_succ, List.append_eq_nil_iff, List.flatMap_eq_nil_iff] at h
    rcases kinds v with ⟨c, p, m, f, t, r, b, rfl⟩ | ⟨c, p, l, e, f, rfl⟩ | ⟨h1, h2⟩
    · rfl
    · rw [sortDictsN_dict]
      have hl : (if skip || mustSkip (.dict c p l e f) then l else sortItems l) = l := by
        split
        · rfl
        next hs =>
          have h0 := h.1
          simp only [here, hs] at h0
          unfold sortItems
          rw [if_pos]
          simpa using h0
      rw [hl]
      have : l.map (sortDictsN n (skip || mustSkip (.dict c p l e f))) = l := by
        conv => rhs; rw [← List.map_id l]
        exact List.map_congr_left fun x hx => ih _ x (h.2 x hx)
      rw [this]
    · rw [sortDictsN_other n skip v h1 h2]
      have : (slots v).map (sortDictsN n (skip || mustSkip v)) = slots v := by
        conv => rhs; rw [← List.map_id (slots v)]
        exact List.map_congr_left fun x hx => ih _ x (h.2 x hx)
      rw [this]
      apply withSlots_slots
      cases v with
      | load c p m f t r b => exact absurd rfl (h1 _ _ _ _ _ _ _)
      | _ => trivial

/-- **C75**: if nothing is reported, the fix changes nothing. -/
theorem C75_nothing_to_do (v : Expr) (h : unsorted v = []) : sortDicts v = v := sortDictsN_id _ false v h

/-! ### non-trivial cases -/

def sitem (k v : Bytes) : Expr := .keyValue {} (.string { value := k }) {} (.literal {} {} v)
def vitem (k v : Bytes) : Expr := .keyValue {} (.ident { name := k }) {} (.literal {} {} v)
def dmark : Comments := { before := [{ token := b!"# @Unsorted-Dict-Items" }] }

/-- private keys and the default go last, the entry with another key stays at its place, entries with the same key keep their order; the dictionary
inside a value is sorted too -/
example :
    sortDicts (.file {} [.dict {} {} [sitem b!"_b" b!"1", sitem b!"b" b!"1", vitem b!"x" b!"2", sitem b!"//conditions:default" b!"3", sitem b!"b" b!"4",
        .keyValue {} (.string { value := b!"a" }) {} (.dict {} {} [sitem b!"d" b!"1", sitem b!"c" b!"2"] {} false)] {} false]) =
      .file {} [.dict {} {} [.keyValue {} (.string { value := b!"a" }) {} (.dict {} {} [sitem b!"c" b!"2", sitem b!"d" b!"1"] {} false),
        sitem b!"b" b!"1", vitem b!"x" b!"2", sitem b!"b" b!"4", sitem b!"//conditions:default" b!"3", sitem b!"_b" b!"1"] {} false] := rfl

example :
    unsorted (.file {} [.dict {} {} [sitem b!"_b" b!"1", sitem b!"b" b!"1", vitem b!"x" b!"2", sitem b!"//conditions:default" b!"3", sitem b!"b" b!"4",
        .keyValue {} (.string { value := b!"a" }) {} (.dict {} {} [sitem b!"d" b!"1", sitem b!"c" b!"2"] {} false)] {} false]) =
      [sitem b!"b" b!"1", sitem b!"b" b!"4", .keyValue {} (.string { value := b!"a" }) {} (.dict {} {} [sitem b!"d" b!"1", sitem b!"c" b!"2"] {} false),
        sitem b!"c" b!"2"] := rfl

/-- a mark on the outer node protects everything inside -/
example :
    unsorted (.file {} [.list dmark {} [.dict {} {} [sitem b!"b" b!"1", sitem b!"a" b!"1"] {} false] {} false]) = [] ∧
    sortDicts (.file {} [.list dmark {} [.dict {} {} [sitem b!"b" b!"1", sitem b!"a" b!"1"] {} false] {} false]) =
      .file {} [.list dmark {} [.dict {} {} [sitem b!"b" b!"1", sitem b!"a" b!"1"] {} false] {} false] := ⟨rfl, rfl⟩

/-- an entry in disorder, as the specification sees it -/
example : Misplaced [sitem b!"b" b!"1", vitem b!"x" b!"2", sitem b!"a" b!"4"] (sitem b!"a" b!"4") :=
  ⟨[], sitem b!"b" b!"1", [vitem b!"x" b!"2"], [], b!"b", b!"a", rfl, by simp [vitem, litKey], rfl, rfl,
    .inr (.inr ⟨by rintro ⟨t, h⟩; simp at h, by rintro ⟨t, h⟩; simp at h, by decide, .inr (by decide)⟩)⟩

end Verif.Cosmetic
