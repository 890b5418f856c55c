import Verif.Model.Layout
import Verif.Proofs.MapE
/-
C23: removing redundant parentheses never changes the meaning.
-/
namespace Verif.Props.Parens
open Verif Verif.Syntax Verif.Walk Verif.Rewrite

/-! ### Specification -/

/-- Expressions that are self-contained: brackets, names, literals, strings, parenthesised expressions and calls. Around
these parentheses never group anything. -/
def Atomic : Expr → Prop
  | .compr .. | .dict .. | .ident .. | .list .. | .literal .. | .paren .. | .set .. | .string .. | .call .. => True
  | _ => False

/-- Parentheses that carry information for a reader: written over several lines on purpose, or commented. -/
def Protected : Expr → Prop
  | .paren c _ _ _ force => force = true ∨ c.before ≠ [] ∨ c.after ≠ [] ∨ c.suffix ≠ []
  | _ => False

instance (e : Expr) : Decidable (Atomic e) := by unfold Atomic; split <;> infer_instance
instance (e : Expr) : Decidable (Protected e) := by unfold Protected; split <;> infer_instance

/-- Drop one pair of parentheses if it is not protected and encloses an atomic expression. Everything else is kept, with all
its fields. -/
def unparen (e : Expr) : Expr :=
  match e with
  | .paren _ _ x _ _ => if ¬ Protected e ∧ Atomic x then x else e
  | e => e

/-- The tree with all those parentheses dropped, everywhere. -/
abbrev normal (e : Expr) : Expr := mapE unparen e

/-! ### Proofs -/

theorem unparen_of_not_paren (e : Expr) (h : ∀ c p x e' f, e ≠ .paren c p x e' f) : unparen e = e := by
  cases e with
  | paren c p x e' f => exact absurd rfl (h c p x e' f)
  | _ => rfl

theorem atomic_unparen (e : Expr) (h : Atomic e) : Atomic (unparen e) := by
  cases e with
  | paren c p x e' f => simp only [unparen]; split
                        · rename_i hc; exact hc.2
                        · exact h
  | _ => exact h

theorem atomic_normal (e : Expr) (h : Atomic e) : Atomic (normal e) := by
  unfold normal
  cases e <;> simp only [mapE] <;> first | exact atomic_unparen _ trivial | exact absurd h (by simp [Atomic])

theorem parenInner_some {e x : Expr} (h : parenInner e = some x) :
    ∃ c p e' f, e = .paren c p x e' f ∧ ¬ Protected e ∧ Atomic x ∧ parenDroppable x = true := by
  cases e <;> simp only [parenInner] at h <;> try contradiction
  rename_i c p y e' f
  split at h
  · rename_i hc
    injection h with h
    subst h
    simp only [Bool.and_eq_true, Bool.not_eq_true', noComments, List.isEmpty_iff] at hc
    refine ⟨c, p, e', f, rfl, ?_, ?_, hc.2⟩
    · simp only [Protected, not_or, Classical.not_not]; simp [hc.1.1, hc.1.2]
    · have := hc.2
      cases y <;> simp_all [parenDroppable, Atomic]
  · contradiction

theorem normal_of_inner {e x : Expr} (h : parenInner e = some x) : normal e = normal x := by
  obtain ⟨c, p, e', f, rfl, hp, ha, _⟩ := parenInner_some h
  have := atomic_normal x ha
  unfold normal at *
  simp only [mapE, unparen]
  rw [if_pos]
  exact ⟨hp, this⟩

theorem treeOk_inner {e x : Expr} (h : parenInner e = some x) (hok : treeOk e) : treeOk x := by
  obtain ⟨c, p, e', f, rfl, _⟩ := parenInner_some h
  exact ((treeOk_iff _).mp hok).2 x (by simp [slots])

theorem simplifyN_ok (n : Nat) : ∀ v, treeOk v → normal (simplifyN n v).1 = normal v ∧ leafKept v (simplifyN n v).1 ∧
    treeOk (simplifyN n v).1 := by
  induction n with
  | zero => intro v h; exact ⟨rfl, leafKept_refl v, h⟩
  | succ n ih =>
    intro v h
    rw [simplifyN]
    split
    · rename_i x hx
      have := editN_mapE unparen (fun (_ : Unit) y _ => ((), simplifyN n y)) (fun s y stk hy => ih y hy) n () x []
        (treeOk_inner hx h)
      refine ⟨by rw [normal_of_inner hx]; exact this.1, ?_, this.2.2⟩
      obtain ⟨c, p, e', f, rfl, _⟩ := parenInner_some hx
      trivial
    · exact ⟨rfl, leafKept_refl v, h⟩

/-- **C23.** The rewrite only drops parentheses that are neither commented nor deliberately spread over several lines, and
only around atomic expressions: apart from such parentheses the tree, with all its comments and positions, is unchanged. -/
theorem C23_only_redundant (e : Expr) (h : treeOk e) : normal (removeParens e) = normal e :=
  (editN_mapE unparen _ (fun _ y _ hy => simplifyN_ok (size e) y hy) (size e) () e [] h).1

/-! #### Completeness -/

/-- Parentheses around the atomic expressions other than calls (for calls the code looks at the line numbers) -/
def Redundant : Expr → Prop
  | e@(.paren _ _ x _ _) => ¬ Protected e ∧ (match x with
    | .compr .. | .dict .. | .ident .. | .list .. | .literal .. | .paren .. | .set .. | .string .. => True
    | _ => False)
  | _ => False

/-- dict entries are `key: value` pairs and comprehension clauses are `for` and `if` clauses -/
def clausesOk : Expr → Prop
  | .dict _ _ l .. => ∀ x ∈ l, ∃ c k p v, x = .keyValue c k p v
  | .compr _ _ _ _ cl .. => ∀ x ∈ cl, (∃ c p v q y, x = .forClause c p v q y) ∨ ∃ c p y, x = .ifClause c p y
  | _ => True

/-- the constructor of a node, as far as `Redundant` cares -/
def isParen : Expr → Bool
  | .paren .. => true
  | _ => false

def bracketed : Expr → Bool
  | .compr .. | .dict .. | .ident .. | .list .. | .literal .. | .set .. | .string .. => true
  | _ => false

theorem redundant_iff (c p x e f) : Redundant (.paren c p x e f) ↔
    ¬ Protected (.paren c p x e f) ∧ (isParen x || bracketed x) = true := by
  cases x <;> simp [Redundant, isParen, bracketed]

theorem droppable_of (x : Expr) (h : (isParen x || bracketed x) = true) : parenDroppable x = true := by
  cases x <;> first | rfl | exact absurd h (by simp [isParen, bracketed])

theorem redundant_inner {e : Expr} (h : Redundant e) : ∃ x, parenInner e = some x := by
  cases e <;> try exact absurd h (fun h => h)
  rename_i c p x e' f
  obtain ⟨h1, h2⟩ := (redundant_iff _ _ _ _ _).mp h
  have h3 := droppable_of x h2
  simp only [Protected, not_or, Classical.not_not, Bool.not_eq_true] at h1
  refine ⟨x, ?_⟩
  simp only [parenInner, noComments, h1.1, h1.2.1, h1.2.2.1, h1.2.2.2, h3]
  rfl

theorem isParen_withSlots (v : Expr) (k : List Expr) : isParen (withSlots v k) = isParen v := by
  cases v <;> (unfold withSlots; split <;> simp_all [isParen])

theorem bracketed_withSlots (v : Expr) (k : List Expr) : bracketed (withSlots v k) = bracketed v := by
  cases v <;> (unfold withSlots; split <;> simp_all [bracketed])

theorem parenInner_isParen {v : Expr} (h : isParen v = false) : parenInner v = none := by
  cases v <;> first | rfl | exact absurd h (by simp [isParen])

theorem simplifyN_none (n : Nat) (v : Expr) (h : parenInner v = none) : simplifyN n v = (v, false) := by
  cases n with
  | zero => rfl
  | succ n => simp only [simplifyN, h]

/-- the whole edit of one node with budgets `m` (parentheses in parentheses) and `n` (depth) -/
def ed (m n : Nat) (v : Expr) (stk : List Expr) : Expr × Bool :=
  (editN (fun (_ : Unit) y _ => ((), simplifyN m y)) n () v stk).2

theorem editFold2 (m n : Nat) (stk : List Expr) (R : Expr → Expr → Prop) (l : List Expr) : ∀ (ws : List Bool), ws.length = l.length →
    (∀ xw ∈ l.zip ws, R xw.1 (if xw.2 && (ed m n xw.1 stk).2 then xw.1 else (ed m n xw.1 stk).1)) → ∀ (acc : List Expr),
    ∃ k, ((l.zip ws).foldl (fun (acc : Unit × List Expr) xw =>
      ((editN (fun (_ : Unit) y _ => ((), simplifyN m y)) n acc.1 xw.1 stk).1,
        acc.2 ++ [if xw.2 && (editN (fun (_ : Unit) y _ => ((), simplifyN m y)) n acc.1 xw.1 stk).2.2 then xw.1
          else (editN (fun (_ : Unit) y _ => ((), simplifyN m y)) n acc.1 xw.1 stk).2.1])) ((), acc)).2
      = acc ++ k ∧ Forall2 R l k := by
  induction l with
  | nil => intro ws _ _ acc; exact ⟨[], by simp, .nil⟩
  | cons x l ih =>
    intro ws hw h acc
    cases ws with
    | nil => simp at hw
    | cons w ws =>
      simp only [List.zip_cons_cons, List.foldl_cons]
      obtain ⟨k, hk, hf⟩ := ih ws (by simpa using hw) (fun y hy => h y (by simp [hy]))
        (acc ++ [if w && (ed m n x stk).2 then x else (ed m n x stk).1])
      refine ⟨_ :: k, ?_, .cons (h (x, w) (by simp)) hf⟩
      have : acc ++ (if w && (ed m n x stk).2 then x else (ed m n x stk).1) :: k =
        (acc ++ [if w && (ed m n x stk).2 then x else (ed m n x stk).1]) ++ k := by simp
      simp only [this]
      exact hk

theorem ed_succ (m n : Nat) (v : Expr) (stk : List Expr) (R : Expr → Expr → Prop) (hv : v.isNil = false)
    (h : ∀ xw ∈ (slots (simplifyN m v).1).zip (weakSlots (simplifyN m v).1), ∀ stk',
      R xw.1 (if xw.2 && (ed m n xw.1 stk').2 then xw.1 else (ed m n xw.1 stk').1)) :
    ∃ k, ed m (n+1) v stk = (withSlots (simplifyN m v).1 k, (simplifyN m v).2) ∧ Forall2 R (slots (simplifyN m v).1) k := by
  rw [ed, editN]
  simp only [hv, Bool.false_eq_true, if_false]
  obtain ⟨k, hk, hall⟩ := editFold2 m n (stk ++ [(simplifyN m v).1]) R (slots (simplifyN m v).1)
    (weakSlots (simplifyN m v).1) (weakSlots_length _) (fun x hx => h x hx _) []
  simp only [List.nil_append] at hk
  exact ⟨k, by rw [hk], hall⟩

/-- editing a node that is not in parentheses keeps its kind, and does not count as a replacement -/
theorem ed_kind (m n : Nat) (v : Expr) (stk : List Expr) (h : isParen v = false) :
    isParen (ed m n v stk).1 = false ∧ bracketed (ed m n v stk).1 = bracketed v ∧ (ed m n v stk).2 = false := by
  cases n with
  | zero => exact ⟨h, rfl, rfl⟩
  | succ n =>
    cases hv : v.isNil with
    | true => rw [ed, editN]; simp only [hv, if_true]; simp [h]
    | false =>
      have hs := simplifyN_none m v (parenInner_isParen h)
      obtain ⟨k, hk, _⟩ := ed_succ m n v stk (fun _ _ => True) hv (fun _ _ _ => trivial)
      rw [hk, hs]
      exact ⟨by rw [isParen_withSlots, h], bracketed_withSlots _ _, rfl⟩

/-- no redundant parentheses are left -/
def Clean : Expr → Prop := All fun v => ¬ Redundant v

/-- what `ed` does to a slot -/
def SlotRel (x y : Expr) : Prop :=
  treeOk y ∧ leafKept x y ∧ (isParen x = false → isParen y = false ∧ bracketed y = bracketed x) ∧ Clean y

theorem clean_withSlots (v : Expr) (k : List Expr) (hok : treeOk v) (hv : ¬ Redundant v) (h : Forall2 SlotRel (slots v) k) :
    Clean (withSlots v k) := by
  have hfit : fits v k := fits_of_kept v ((treeOk_iff v).mp hok).1 k (forall2_imp h (fun a b h => h.2.1))
  refine (All_iff _ _).mpr ⟨?_, ?_⟩
  · cases v with
    | paren c p x e f =>
      simp only [slots] at h
      cases h with
      | cons h1 h2 =>
        cases h2
        rename_i y
        simp only [withSlots]
        rw [redundant_iff] at *
        rintro ⟨hp, hb⟩
        refine hv ⟨hp, ?_⟩
        cases hx : isParen x with
        | true => rfl
        | false =>
          obtain ⟨h1, h2⟩ := h1.2.2.1 hx
          rw [h1, h2] at hb
          simpa using hb
    | _ =>
      intro hr
      revert hr
      unfold withSlots
      split <;> simp_all [Redundant]
  · rw [slots_withSlots v k hfit]
    exact forall2_right h (fun a b h => h.2.2.2)

theorem simplifyN_ok' (m : Nat) (v : Expr) (h : treeOk v) : leafKept v (simplifyN m v).1 ∧ treeOk (simplifyN m v).1 :=
  (simplifyN_ok m v h).2

theorem ed_ok (m n : Nat) (v : Expr) (stk) (h : treeOk v) : leafKept v (ed m n v stk).1 ∧ treeOk (ed m n v stk).1 :=
  (editN_mapE unparen _ (fun _ y _ hy => simplifyN_ok m y hy) n () v stk h).2

/-- a tree without redundant parentheses stays so -/
theorem ed_clean (m : Nat) : ∀ n v stk, treeOk v → Clean v → Clean (ed m n v stk).1 := by
  induction m with
  | zero =>
    intro n
    induction n with
    | zero => intro v stk _ h; exact h
    | succ n ih =>
      intro v stk hok hc
      cases hv : v.isNil with
      | true => rw [ed, editN]; simp only [hv, if_true]; exact hc
      | false =>
        have ho := (treeOk_iff v).mp hok
        have hcl := (All_iff _ v).mp hc
        obtain ⟨k, hk, hall⟩ := ed_succ 0 n v stk (fun x y => x ∈ slots v → SlotRel x y) hv (by
          intro xw hxw stk' hx
          have hx1 := hcl.2 _ hx
          split
          · exact ⟨ho.2 _ hx, leafKept_refl _, fun h => ⟨h, rfl⟩, hx1⟩
          · exact ⟨(ed_ok 0 n _ _ (ho.2 _ hx)).2, (ed_ok 0 n _ _ (ho.2 _ hx)).1,
              fun h => ⟨(ed_kind 0 n _ _ h).1, (ed_kind 0 n _ _ h).2.1⟩, ih _ _ (ho.2 _ hx) hx1⟩)
        rw [hk]
        exact clean_withSlots v k hok hcl.1 (forall2_mem hall (fun x hx => hx))
  | succ m ihm =>
    intro n
    induction n with
    | zero => intro v stk _ h; exact h
    | succ n ih =>
      intro v stk hok hc
      cases hv : v.isNil with
      | true => rw [ed, editN]; simp only [hv, if_true]; exact hc
      | false =>
        have hcl := (All_iff _ v).mp hc
        have hs : treeOk (simplifyN (m+1) v).1 ∧ Clean (simplifyN (m+1) v).1 := by
          refine ⟨(simplifyN_ok' _ v hok).2, ?_⟩
          rw [simplifyN]
          split
          · rename_i x hx
            obtain ⟨c, p, e', f, rfl, _⟩ := parenInner_some hx
            exact ihm m x [] (treeOk_inner hx hok) (hcl.2 x (by simp [slots]))
          · exact hc
        obtain ⟨hok1, hc1⟩ := hs
        have ho1 := (treeOk_iff _).mp hok1
        have hcl1 := (All_iff _ _).mp hc1
        obtain ⟨k, hk, hall⟩ := ed_succ (m+1) n v stk (fun x y => x ∈ slots (simplifyN (m+1) v).1 → SlotRel x y) hv (by
          intro xw hxw stk' hx
          have hx1 := hcl1.2 _ hx
          split
          · exact ⟨ho1.2 _ hx, leafKept_refl _, fun h => ⟨h, rfl⟩, hx1⟩
          · exact ⟨(ed_ok (m+1) n _ _ (ho1.2 _ hx)).2, (ed_ok (m+1) n _ _ (ho1.2 _ hx)).1,
              fun h => ⟨(ed_kind (m+1) n _ _ h).1, (ed_kind (m+1) n _ _ h).2.1⟩, ih _ _ (ho1.2 _ hx) hx1⟩)
        rw [hk]
        exact clean_withSlots _ k hok1 hcl1.1 (forall2_mem hall (fun x hx => hx))

theorem weak_not_paren (v : Expr) (h : clausesOk v) : ∀ xw ∈ (slots v).zip (weakSlots v), xw.2 = true → isParen xw.1 = false := by
  have aux : ∀ l : List Expr, ∀ xw ∈ l.zip (l.map fun _ => false), xw.2 = true → isParen xw.1 = false := by
    intro l
    induction l with
    | nil => simp
    | cons x l ih =>
      intro xw hxw
      simp only [List.map_cons, List.zip_cons_cons] at hxw
      cases hxw with
      | head => intro h; simp at h
      | tail _ hxw => exact ih xw hxw
  cases v with
  | dict c p l e f =>
    intro xw hxw _
    simp only [slots, weakSlots] at hxw
    obtain ⟨_, _, _, _, he⟩ := h _ (List.of_mem_zip hxw).1
    rw [he]; rfl
  | compr c u p b cl f e =>
    intro xw hxw hw
    simp only [slots, weakSlots, List.zip_cons_cons] at hxw
    cases hxw with
    | head => simp at hw
    | tail _ hxw =>
      rcases h _ (List.of_mem_zip hxw).1 with ⟨_, _, _, _, _, he⟩ | ⟨_, _, _, he⟩ <;> rw [he] <;> rfl
  | _ => exact aux _

theorem ed_makes_clean (v : Expr) : ∀ m n stk, size v ≤ m → size v ≤ n → treeOk v → All clausesOk v →
    Clean (ed m n v stk).1 := by
  suffices ∀ s v, size v ≤ s → ∀ m n stk, size v ≤ m → size v ≤ n → treeOk v → All clausesOk v → Clean (ed m n v stk).1 from
    this (size v) v (Nat.le_refl _)
  intro s
  induction s with
  | zero => intro v hv; have := size_pos v; omega
  | succ s ih =>
    intro v hs m n stk hm hn hok hcl
    have hp := size_pos v
    obtain ⟨n, rfl⟩ : ∃ k, n = k + 1 := ⟨n - 1, by omega⟩
    obtain ⟨m, rfl⟩ : ∃ k, m = k + 1 := ⟨m - 1, by omega⟩
    cases hv : v.isNil with
    | true =>
      rw [ed, editN]; simp only [hv, if_true]
      have : v = .nil := by cases v <;> simp_all [Expr.isNil]
      subst this
      exact (All_iff _ _).mpr ⟨fun h => h, by simp [slots]⟩
    | false =>
      cases hi : parenInner v with
      | none =>
        have hsn := simplifyN_none (m+1) v hi
        have ho := (treeOk_iff v).mp hok
        have hc := (All_iff _ v).mp hcl
        obtain ⟨k, hk, hall⟩ := ed_succ (m+1) n v stk (fun x y => x ∈ slots v → SlotRel x y) hv (by
          rw [hsn]
          intro xw hxw stk' hx
          have hlt := size_slot_lt hx
          split
          · rename_i hw
            simp only [Bool.and_eq_true] at hw
            have := (ed_kind (m+1) n xw.1 stk' (weak_not_paren v hc.1 xw hxw hw.1)).2.2
            rw [this] at hw
            exact absurd hw.2 (by decide)
          · exact ⟨(ed_ok (m+1) n _ _ (ho.2 _ hx)).2, (ed_ok (m+1) n _ _ (ho.2 _ hx)).1,
              fun h => ⟨(ed_kind (m+1) n _ _ h).1, (ed_kind (m+1) n _ _ h).2.1⟩,
              ih _ (by omega) _ _ _ (by omega) (by omega) (ho.2 _ hx) (hc.2 _ hx)⟩)
        rw [hsn] at hk hall
        rw [hk]
        refine clean_withSlots v k hok ?_ (forall2_mem hall (fun x hx => hx))
        intro hr
        obtain ⟨x, hx⟩ := redundant_inner hr
        rw [hi] at hx
        exact absurd hx (by simp)
      | some x =>
        obtain ⟨c, p, e', f, rfl, _⟩ := parenInner_some hi
        have hxs : x ∈ slots (.paren c p x e' f) := by simp [slots]
        have hlt := size_slot_lt hxs
        have hok1 : treeOk (simplifyN (m+1) (.paren c p x e' f)).1 := (simplifyN_ok' _ _ hok).2
        have hc1 : Clean (simplifyN (m+1) (.paren c p x e' f)).1 := by
          rw [simplifyN]
          simp only [hi]
          exact ih x (by omega) m m [] (by omega) (by omega) (treeOk_inner hi hok) (((All_iff _ _).mp hcl).2 x hxs)
        have ho1 := (treeOk_iff _).mp hok1
        have hcl1 := (All_iff _ _).mp hc1
        obtain ⟨k, hk, hall⟩ := ed_succ (m+1) n _ stk (fun a y => a ∈ slots (simplifyN (m+1) (.paren c p x e' f)).1 → SlotRel a y) hv (by
          intro xw hxw stk' hx
          have hx1 := hcl1.2 _ hx
          split
          · exact ⟨ho1.2 _ hx, leafKept_refl _, fun h => ⟨h, rfl⟩, hx1⟩
          · exact ⟨(ed_ok (m+1) n _ _ (ho1.2 _ hx)).2, (ed_ok (m+1) n _ _ (ho1.2 _ hx)).1,
              fun h => ⟨(ed_kind (m+1) n _ _ h).1, (ed_kind (m+1) n _ _ h).2.1⟩, ed_clean (m+1) n _ _ (ho1.2 _ hx) hx1⟩)
        rw [hk]
        exact clean_withSlots _ k hok1 hcl1.1 (forall2_mem hall (fun x hx => hx))

/-- **C23 (complete).** Afterwards no unprotected parentheses around a name, literal, string, list, dict, set, comprehension
or another parenthesised expression are left at any node the traversal reaches. -/
theorem C23_complete (e : Expr) (h : treeOk e) (hc : All clausesOk e) : All (fun v => ¬ Redundant v) (removeParens e) :=
  ed_makes_clean e (size e) (size e) [] (Nat.le_refl _) (Nat.le_refl _) h hc

/-! #### Examples -/

private def idn (s : Bytes) : Expr := .ident { name := s }
private def par (x : Expr) : Expr := .paren {} {} x {} false
private def plus (x y : Expr) : Expr := .binary {} x {} b!"+" false y

/-- `((a)) + (b + c)`: the inner sum keeps its parentheses -/
example : removeParens (.file {} [plus (par (par (idn b!"a"))) (par (plus (idn b!"b") (idn b!"c")))])
    = .file {} [plus (idn b!"a") (par (plus (idn b!"b") (idn b!"c")))] := rfl

example : treeOk (.file {} [plus (par (par (idn b!"a"))) (par (plus (idn b!"b") (idn b!"c")))]) := by
  intro n
  rcases n with _ | _ | _ | _ | _ | _ | n <;> simp [All.allN, slots, lenOk, par, plus, idn]

/-- A commented pair is kept. -/
example : removeParens (.paren { before := [{ token := b!"# why" }] } {} (idn b!"a") {} false)
    = .paren { before := [{ token := b!"# why" }] } {} (idn b!"a") {} false := rfl

end Verif.Props.Parens
