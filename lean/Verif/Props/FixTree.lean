import Verif.Props.FixText
import Verif.Proofs.MapE
/-
C80: the fixes of `buildozer fix` that rewrite the tree of a rule (edit/fix.go), and `FixRule`.
-/
namespace Verif.Props.FixTree
open Verif Verif.Syntax Verif.Walk Verif.Edit Verif.Fix Verif.Props.Fix

/-! ## Specification -/

/-- `w` is `v` or inside it -/
inductive Inside : Expr → Expr → Prop
  | here (v) : Inside v v
  | child (v x w) : x ∈ slots v → Inside x w → Inside v w

/-- `w` is `v` after any number of steps at any nodes -/
inductive Steps (step : Expr → Expr → Prop) : Expr → Expr → Prop
  | refl (v) : Steps step v v
  | step (v w) : step v w → Steps step v w
  | trans (u v w) : Steps step u v → Steps step v w → Steps step u w
  | inner (v ks) : Forall2 (Steps step) (slots v) ks → Steps step v (withSlots v ks)

/-- `[a, …] + [b, …]` becomes `[a, …, b, …]` -/
inductive Merge : Expr → Expr → Prop
  | mk (c p lb c1 p1 l e1 m1 c2 p2 k e2 m2) :
      Merge (.binary c (.list c1 p1 l e1 m1) p b!"+" lb (.list c2 p2 k e2 m2)) (.list c1 p1 (l ++ k) e1 m1)

/-- `varref("x")` becomes `"$(x)"` -/
inductive Varref : Expr → Expr → Prop
  | mk (c ci pi p e a b) (s : StringN) :
      Varref (.call c (.ident ⟨ci, pi, b!"varref"⟩) p [.string s] e a b)
        (.string { s with value := b!"$(" ++ s.value ++ b!")", comments := { s.comments with suffix := s.comments.suffix ++ c.suffix } })

/-- `glob([...], ...)` gets its first argument sorted (C22 and following say how) -/
inductive Glob (strip : Bool) : Expr → Expr → Prop
  | mk (c ci pi p x l e a b) :
      Glob strip (.call c (.ident ⟨ci, pi, b!"glob"⟩) p (x :: l) e a b)
        (.call c (.ident ⟨ci, pi, b!"glob"⟩) p (Rewrite.sortStringList strip x :: l) e a b)

/-- what the parser guarantees: as many local as original names in a load, entries in dictionaries, clauses in comprehensions -/
def Shape : Expr → Prop
  | .load _ _ _ f t .. => f.length = t.length
  | .dict _ _ l .. => ∀ x ∈ l, ∃ c k p v, x = .keyValue c k p v
  | .compr _ _ _ _ cl .. => ∀ x ∈ cl, (∃ c p v q y, x = .forClause c p v q y) ∨ ∃ c p y, x = .ifClause c p y
  | _ => True

/-! ## Editing -/

/-- the callback of `edit` -/
def cb (f : Expr → Option Expr) : Bool → Expr → List Expr → Bool × Expr × Bool :=
  fun (fixed : Bool) x _ => match f x with
    | some y => (true, y, true)
    | none => (fixed, x, false)

theorem edit_eq (f : Expr → Option Expr) (r : Expr) : Fix.edit f r = ((editN (cb f) (size r) false r []).2.1, (editN (cb f) (size r) false r []).1) := rfl

/-- the loop over the slots -/
def foldSlots (f : Expr → Option Expr) (n : Nat) (stk : List Expr) (l : List (Expr × Bool)) (acc : Bool × List Expr) : Bool × List Expr :=
  l.foldl (fun (acc : Bool × List Expr) xw =>
    ((editN (cb f) n acc.1 xw.1 stk).1,
      acc.2 ++ [if xw.2 && (editN (cb f) n acc.1 xw.1 stk).2.2 then xw.1 else (editN (cb f) n acc.1 xw.1 stk).2.1])) acc

theorem editN_cb (f : Expr → Option Expr) (n : Nat) (s : Bool) (v : Expr) (stk : List Expr) (hv : v.isNil = false) :
    editN (cb f) (n + 1) s v stk =
      ((foldSlots f n (stk ++ [(f v).getD v]) ((slots ((f v).getD v)).zip (weakSlots ((f v).getD v))) (s || (f v).isSome, [])).1,
        withSlots ((f v).getD v) (foldSlots f n (stk ++ [(f v).getD v]) ((slots ((f v).getD v)).zip (weakSlots ((f v).getD v))) (s || (f v).isSome, [])).2,
        (f v).isSome) := by
  rw [editN, if_neg (by simp [hv])]
  cases h : f v with
  | none => simp [cb, h, foldSlots]
  | some y => simp [cb, h, foldSlots]

theorem editN_nil (f : Expr → Option Expr) (n : Nat) (s : Bool) (stk : List Expr) : editN (cb f) n s .nil stk = (s, .nil, false) := by
  cases n with
  | zero => rfl
  | succ n => rw [editN, if_pos (show Expr.nil.isNil = true from rfl)]

theorem edit_steps {step : Expr → Expr → Prop} (f : Expr → Option Expr) (hf : ∀ x y, f x = some y → Steps step x y) :
    ∀ (n : Nat) (s : Bool) (v : Expr) (stk : List Expr), Steps step v (editN (cb f) n s v stk).2.1
  | 0, s, v, stk => .refl v
  | n + 1, s, v, stk => by
    cases hv : v.isNil with
    | true => rw [eq_nil hv, editN_nil]; exact .refl _
    | false =>
      rw [editN_cb f n s v stk hv]
      have h1 : Steps step v ((f v).getD v) := by
        cases h : f v with
        | none => exact .refl v
        | some y => exact hf v y h
      refine .trans _ _ _ h1 ?_
      obtain ⟨k, hk, hk2⟩ := editFold_map (cb f) n (stk ++ [(f v).getD v]) (Steps step) Steps.refl (slots ((f v).getD v))
        (weakSlots ((f v).getD v)) (weakSlots_length _) (fun x _ s => edit_steps f hf n s x _) (s || (f v).isSome) []
      simp only [foldSlots]
      rw [hk, List.nil_append]
      exact .inner _ k hk2

theorem fold_state (f : Expr → Option Expr) (n : Nat) (stk : List Expr) (P : Expr → Prop) : ∀ (l : List (Expr × Bool)) (s : Bool) (acc : List Expr),
    (∀ x ∈ l, ∀ s, (editN (cb f) n s x.1 stk).1 = true ↔ s = true ∨ P x.1) →
    ((foldSlots f n stk l (s, acc)).1 = true ↔ s = true ∨ ∃ x ∈ l, P x.1)
  | [], s, acc, _ => by simp [foldSlots]
  | x :: l, s, acc, h => by
    have ih := fold_state f n stk P l (editN (cb f) n s x.1 stk).1
      (acc ++ [if x.2 && (editN (cb f) n s x.1 stk).2.2 then x.1 else (editN (cb f) n s x.1 stk).2.1]) fun y hy => h y (by simp [hy])
    rw [foldSlots, List.foldl_cons]
    rw [foldSlots] at ih
    rw [ih, h x (by simp)]
    simp only [List.mem_cons, exists_eq_or_imp, or_assoc]

theorem edit_mono (f : Expr → Option Expr) : ∀ (n : Nat) (v : Expr) (stk : List Expr), (editN (cb f) n true v stk).1 = true
  | 0, v, stk => rfl
  | n + 1, v, stk => by
    cases hv : v.isNil with
    | true => rw [eq_nil hv, editN_nil]
    | false =>
      rw [editN_cb f n true v stk hv]
      have : ∀ (l : List (Expr × Bool)) (acc : List Expr) stk, (foldSlots f n stk l (true, acc)).1 = true := by
        intro l
        induction l with
        | nil => intro acc stk; rfl
        | cons x l ih =>
          intro acc stk
          rw [foldSlots, List.foldl_cons]
          have h := edit_mono f n x.1 stk
          dsimp only
          rw [h]
          exact ih _ stk
      exact this _ _ _

theorem mem_zip_left {α β : Type} {x : α} : ∀ {l : List α} {k : List β}, k.length = l.length → x ∈ l → ∃ p, (x, p) ∈ l.zip k
  | [], _, _, h => by cases h
  | _ :: _, [], hk, _ => by simp at hk
  | a :: l, b :: k, hk, h => by
    rcases List.mem_cons.1 h with rfl | h
    · exact ⟨b, by simp⟩
    · obtain ⟨p, hp⟩ := mem_zip_left (k := k) (by simpa using hk) h
      exact ⟨p, by simp [hp]⟩

theorem edit_state (f : Expr → Option Expr) (hnil : f .nil = none) : ∀ (n : Nat) (s : Bool) (v : Expr) (stk : List Expr), size v ≤ n →
    ((editN (cb f) n s v stk).1 = true ↔ s = true ∨ ∃ w, Inside v w ∧ (f w).isSome = true)
  | 0, s, v, stk, h => by have := size_pos v; omega
  | n + 1, s, v, stk, h => by
    cases hv : v.isNil with
    | true =>
      rw [eq_nil hv, editN_nil]
      constructor
      · exact .inl
      · rintro (h | ⟨w, hw, h⟩)
        · exact h
        · cases hw with
          | here => rw [hnil] at h; cases h
          | child _ x _ hx => simp [slots] at hx
    | false =>
      cases hf : f v with
      | some y =>
        constructor
        · intro _; exact .inr ⟨v, .here v, by rw [hf]; rfl⟩
        · intro _
          rw [editN_cb f n s v stk hv]
          have hs : (s || (f v).isSome) = true := by rw [hf]; simp
          rw [hs]
          have hm := edit_mono f (n + 1) v stk
          rw [editN_cb f n true v stk hv] at hm
          have ht : (true || (f v).isSome) = true := rfl
          rw [ht] at hm
          exact hm
      | none =>
        rw [editN_cb f n s v stk hv]
        simp only [hf, Option.getD_none, Option.isSome_none, Bool.or_false]
        rw [fold_state f n (stk ++ [v]) (fun x => ∃ w, Inside x w ∧ (f w).isSome = true)]
        · apply or_congr Iff.rfl
          constructor
          · rintro ⟨x, hx, w, hw, h⟩
            exact ⟨w, .child v x.1 w (List.of_mem_zip hx).1 hw, h⟩
          · rintro ⟨w, hw, h⟩
            cases hw with
            | here => rw [hf] at h; cases h
            | child _ x _ hx hw =>
              obtain ⟨p, hp⟩ := mem_zip_left (weakSlots_length v) hx
              exact ⟨(x, p), hp, w, hw, h⟩
        · intro x hx s
          have := size_slot_lt (List.of_mem_zip (a := x.1) (b := x.2) hx).1
          exact edit_state f hnil n s x.1 _ (by omega)

theorem inside_lenOk {v w : Expr} (h : Inside v w) : treeOk v → treeOk w := by
  induction h with
  | here => exact id
  | child v x w hx _ ih => intro hv; exact ih (((treeOk_iff v).1 hv).2 x hx)

theorem edit_same (f : Expr → Option Expr) : ∀ (n : Nat) (s : Bool) (v : Expr) (stk : List Expr), treeOk v → (∀ w, Inside v w → f w = none) →
    editN (cb f) n s v stk = (s, v, false)
  | 0, s, v, stk, _, _ => rfl
  | n + 1, s, v, stk, hok, hno => by
    cases hv : v.isNil with
    | true => rw [eq_nil hv, editN_nil]
    | false =>
      rw [editN_cb f n s v stk hv]
      simp only [hno v (.here v), Option.getD_none, Option.isSome_none, Bool.or_false]
      have : ∀ (l : List (Expr × Bool)) (acc : List Expr), (∀ x ∈ l, treeOk x.1 ∧ ∀ w, Inside x.1 w → f w = none) →
          foldSlots f n (stk ++ [v]) l (s, acc) = (s, acc ++ l.map (·.1)) := by
        intro l
        induction l with
        | nil => intro acc _; simp [foldSlots]
        | cons x l ih =>
          intro acc h
          have hx := h x (by simp)
          rw [foldSlots, List.foldl_cons]
          dsimp only
          rw [edit_same f n s x.1 _ hx.1 hx.2]
          simp only [Bool.and_false, Bool.false_eq_true, if_false]
          rw [List.map_cons]
          have := ih (acc ++ [x.1]) fun y hy => h y (by simp [hy])
          rw [foldSlots] at this
          rw [this, List.append_assoc]
          rfl
      rw [this _ _ fun x hx => ⟨((treeOk_iff v).1 hok).2 _ (List.of_mem_zip (a := x.1) (b := x.2) hx).1,
        fun w hw => hno w (.child v _ w (List.of_mem_zip (a := x.1) (b := x.2) hx).1 hw)⟩]
      have hz : ((slots v).zip (weakSlots v)).map (·.1) = slots v := by
        have := List.map_fst_zip (l₁ := slots v) (l₂ := weakSlots v) (by rw [weakSlots_length]; exact Nat.le_refl _)
        exact this
      rw [List.nil_append, hz, withSlots_slots v ((treeOk_iff v).1 hok).1]

/-- an edit reports a change iff some node matches, and changes nothing otherwise -/
theorem edit_reported (f : Expr → Option Expr) (hnil : f .nil = none) (v : Expr) :
    (Fix.edit f v).2 = true ↔ ∃ w, Inside v w ∧ (f w).isSome = true := by
  rw [edit_eq]
  rw [edit_state f hnil _ _ _ _ (Nat.le_refl _)]
  simp

theorem edit_unchanged (f : Expr → Option Expr) (hnil : f .nil = none) (v : Expr) (hok : treeOk v) (h : (Fix.edit f v).2 = false) : (Fix.edit f v).1 = v := by
  have hno : ∀ w, Inside v w → f w = none := by
    intro w hw
    cases hf : f w with
    | none => rfl
    | some y =>
      have := (edit_reported f hnil v).2 ⟨w, hw, by rw [hf]; rfl⟩
      rw [h] at this
      cases this
  rw [edit_eq, edit_same f _ _ _ _ hok hno]

/-! ## Merging lists -/

theorem asList_list {e y : Expr} (h : asList e = some y) : ∃ c p l t m, y = .list c p l t m := by
  unfold asList at h
  split at h
  · injection h with h; exact ⟨_, _, _, _, _, h.symm⟩
  · split at h
    · split at h
      · injection h with h; exact ⟨_, _, _, _, _, h.symm⟩
      · cases h
    · cases h
  · cases h

theorem asList_binary {c x p o lb y z} (h : asList (.binary c x p o lb y) = some z) :
    o = b!"+" ∧ ∃ c1 p1 l e1 m1 c2 p2 k e2 m2, asList x = some (.list c1 p1 l e1 m1) ∧ asList y = some (.list c2 p2 k e2 m2) ∧
      z = .list c1 p1 (l ++ k) e1 m1 := by
  rw [asList] at h
  split at h
  · rename_i ho
    split at h
    · rename_i h1 h2
      injection h with h
      exact ⟨ho, _, _, _, _, _, _, _, _, _, _, h1, h2, h.symm⟩
    · cases h
  · cases h

theorem asList_steps (e : Expr) : ∀ y, asList e = some y → Steps Merge e y := by
  induction e using asList.induct with
  | case1 c p l t m => intro y h; rw [asList] at h; injection h with h; rw [← h]; exact .refl _
  | case2 c x p lb y c1 p1 l e1 m1 c2 p2 k e2 m2 h1 h2 ih1 ih2 =>
    intro z hz
    obtain ⟨_, _, _, _, _, _, _, _, _, _, _, h3, h4, rfl⟩ := asList_binary hz
    refine .trans _ _ _ (.inner _ [_, _] (.cons (ih1 _ h3) (.cons (ih2 _ h4) .nil))) ?_
    exact .step _ _ (.mk ..)
  | case3 c x p lb y hno ih1 ih2 =>
    intro z hz
    obtain ⟨_, _, _, _, _, _, _, _, _, _, _, h4, h5, _⟩ := asList_binary (c := c) (p := p) (lb := lb) hz
    exact (hno _ _ _ _ _ _ _ _ _ _ h4 h5).elim
  | case4 c x p o lb y h =>
    intro z hz
    have := (asList_binary (c := c) (p := p) (lb := lb) hz).1
    exact absurd this h
  | case5 e h1 h2 =>
    intro y h
    unfold asList at h
    split at h
    · exact absurd rfl (h1 _ _ _ _ _)
    · exact absurd rfl (h2 _ _ _ _ _ _)
    · cases h

/-- **C80**: `mergeLiteralLists` does nothing but replace `[a, …] + [b, …]` by `[a, …, b, …]`. -/
theorem C80_merge_safe (r : Expr) : Steps Merge r (mergeLists r).1 := by
  refine edit_steps mergeNode ?_ _ _ _ _
  intro x y h
  unfold mergeNode at h
  split at h
  · exact asList_steps _ _ h
  · cases h

/-- every node is as the parser builds it -/
def WellShaped (v : Expr) : Prop := ∀ w, Inside v w → Shape w

theorem inside_trans {u v w : Expr} (h1 : Inside u v) (h2 : Inside v w) : Inside u w := by
  induction h1 with
  | here => exact h2
  | child v x w' hx _ ih => exact .child v x w hx (ih h2)

theorem shaped_slot {v x : Expr} (h : WellShaped v) (hx : x ∈ slots v) : WellShaped x := fun w hw => h w (.child v x w hx hw)

theorem shaped_treeOk (v : Expr) : WellShaped v → treeOk v := by
  refine slot_induction (P := fun v => WellShaped v → treeOk v) ?_ v
  intro v ih h
  rw [treeOk_iff]
  refine ⟨?_, fun x hx => ih x hx (shaped_slot h hx)⟩
  have := h v (.here v)
  cases v <;> first | exact this | trivial

theorem asList_inside (e : Expr) : ∀ y, asList e = some y → size y ≤ size e ∧ ∀ x ∈ slots y, Inside e x := by
  induction e using asList.induct with
  | case1 c p l t m =>
    intro y h; rw [asList] at h; injection h with h; rw [← h]
    exact ⟨Nat.le_refl _, fun x hx => .child _ x x hx (.here x)⟩
  | case2 c x p lb y c1 p1 l e1 m1 c2 p2 k e2 m2 h1 h2 ih1 ih2 =>
    intro z hz
    obtain ⟨_, _, _, _, _, _, _, _, _, _, _, h3, h4, rfl⟩ := asList_binary hz
    have i1 := ih1 _ h3
    have i2 := ih2 _ h4
    refine ⟨?_, ?_⟩
    · have a1 := i1.1; have a2 := i2.1
      simp only [size] at a1 a2 ⊢
      rw [sizeL_append]
      omega
    · intro w hw
      simp only [slots] at hw i1 i2
      rcases List.mem_append.1 hw with hw | hw
      · exact .child _ x w (by simp [slots]) (i1.2 w hw)
      · exact .child _ y w (by simp [slots]) (i2.2 w hw)
  | case3 c x p lb y hno ih1 ih2 =>
    intro z hz
    obtain ⟨_, _, _, _, _, _, _, _, _, _, _, h4, h5, _⟩ := asList_binary (c := c) (p := p) (lb := lb) hz
    exact (hno _ _ _ _ _ _ _ _ _ _ h4 h5).elim
  | case4 c x p o lb y h =>
    intro z hz
    have := (asList_binary (c := c) (p := p) (lb := lb) hz).1
    exact absurd this h
  | case5 e h1 h2 =>
    intro y h
    unfold asList at h
    split at h
    · exact absurd rfl (h1 _ _ _ _ _)
    · exact absurd rfl (h2 _ _ _ _ _ _)
    · cases h

theorem mergeNode_asList {v y : Expr} (h : mergeNode v = some y) : asList v = some y := by
  unfold mergeNode at h
  split at h
  · exact h
  · cases h

theorem asList_of (v : Expr) : (asList v).isSome = true ↔ (mergeNode v).isSome = true ∨ ∃ c p l t m, v = .list c p l t m := by
  by_cases hb : ∃ c x p o lb y, v = .binary c x p o lb y
  · obtain ⟨c, x, p, o, lb, y, rfl⟩ := hb
    constructor
    · exact .inl
    · rintro (h | ⟨_, _, _, _, _, h⟩)
      · exact h
      · cases h
  · have hm : mergeNode v = none := by
      unfold mergeNode; split
      · exact absurd ⟨_, _, _, _, _, _, rfl⟩ hb
      · rfl
    rw [hm]
    constructor
    · intro h
      unfold asList at h
      split at h
      · exact .inr ⟨_, _, _, _, _, rfl⟩
      · exact absurd ⟨_, _, _, _, _, _, rfl⟩ hb
      · cases h
    · rintro (h | ⟨c, p, l, t, m, rfl⟩)
      · cases h
      · rfl

theorem fold_edit (f : Expr → Option Expr) (hnil : f .nil = none) (n : Nat) (stk : List Expr) : ∀ (l : List Expr) (ws : List Bool) (s : Bool) (acc : List Expr),
    ws.length = l.length → (∀ xw ∈ l.zip ws, xw.2 = true → f xw.1 = none) →
    ∃ k, (foldSlots f n stk (l.zip ws) (s, acc)).2 = acc ++ k ∧ Forall2 (fun x y => ∃ s, y = (editN (cb f) n s x stk).2.1) l k
  | [], ws, s, acc, _, _ => ⟨[], by simp [foldSlots], .nil⟩
  | x :: l, [], s, acc, h, _ => by simp at h
  | x :: l, w :: ws, s, acc, hlen, hw => by
    have hrep : (w && (editN (cb f) n s x stk).2.2) = false := by
      cases w with
      | false => rfl
      | true =>
        have hx : f x = none := hw (x, true) (by simp) rfl
        cases n with
        | zero => rfl
        | succ n =>
          cases hv : x.isNil with
          | true => rw [eq_nil hv, editN_nil]; rfl
          | false => rw [editN_cb f n s x stk hv, hx]; rfl
    obtain ⟨k, hk, hk2⟩ := fold_edit f hnil n stk l ws (editN (cb f) n s x stk).1 (acc ++ [(editN (cb f) n s x stk).2.1]) (by simpa using hlen)
      fun xw h => hw xw (by simp [h])
    refine ⟨(editN (cb f) n s x stk).2.1 :: k, ?_, .cons ⟨s, rfl⟩ hk2⟩
    rw [List.zip_cons_cons, foldSlots, List.foldl_cons]
    dsimp only
    rw [hrep]
    simp only [Bool.false_eq_true, if_false]
    rw [foldSlots] at hk
    rw [hk, List.append_assoc]
    rfl

theorem withSlots_list {v : Expr} {k : List Expr} : (∃ c p l t m, withSlots v k = .list c p l t m) ↔ ∃ c p l t m, v = .list c p l t m := by
  constructor
  · rintro ⟨c, p, l, t, m, h⟩
    unfold withSlots at h
    split at h <;> first | cases h; done | exact ⟨_, _, _, _, _, rfl⟩ | (subst h; exact ⟨_, _, _, _, _, rfl⟩)
  · rintro ⟨c, p, l, t, m, rfl⟩
    exact ⟨c, p, k, t, m, rfl⟩

theorem withSlots_binary {v : Expr} {k : List Expr} {c x p o lb y} (h : withSlots v k = .binary c x p o lb y) (hk : k.length = (slots v).length) :
    ∃ x' y', v = .binary c x' p o lb y' ∧ k = [x, y] := by
  by_cases hb : ∃ c x p o lb y, v = .binary c x p o lb y
  · obtain ⟨c', x', p', o', lb', y', rfl⟩ := hb
    match k, hk with
    | [a, b], _ => simp only [withSlots] at h; cases h; exact ⟨x', y', rfl, rfl⟩
  · exfalso
    cases v with
    | binary c' x' p' o' lb' y' => exact hb ⟨_, _, _, _, _, _, rfl⟩
    | _ => unfold withSlots at h; split at h <;> simp_all

theorem weak_merge (v : Expr) (h : Shape v) : ∀ xw ∈ (slots v).zip (weakSlots v), xw.2 = true → mergeNode xw.1 = none := by
  intro xw hx hw
  have hm : xw.1 ∈ slots v := (List.of_mem_zip (a := xw.1) (b := xw.2) hx).1
  cases v with
  | dict c p l t m =>
    obtain ⟨_, _, _, _, h⟩ := h xw.1 hm
    rw [h]; rfl
  | compr c u p b cl t m =>
    simp only [slots, weakSlots, List.zip_cons_cons] at hx
    rcases List.mem_cons.1 hx with rfl | hx
    · cases hw
    · rcases h xw.1 (List.of_mem_zip (a := xw.1) (b := xw.2) hx).1 with ⟨_, _, _, _, _, h⟩ | ⟨_, _, _, h⟩ <;> rw [h] <;> rfl
  | _ =>
    have hh := (List.of_mem_zip (a := xw.1) (b := xw.2) hx).2
    simp [weakSlots] at hh
    rw [hw] at hh
    first | exact absurd hh.2 (by simp) | simp at hh

theorem merge_done : ∀ (n : Nat) (s : Bool) (v : Expr) (stk : List Expr), size v ≤ n → WellShaped v →
    leafKept v (editN (cb mergeNode) n s v stk).2.1 ∧
    ((∃ c p l t m, (editN (cb mergeNode) n s v stk).2.1 = .list c p l t m) ↔ (asList v).isSome = true) ∧
    ∀ w, Inside (editN (cb mergeNode) n s v stk).2.1 w → ∀ z, ¬ Merge w z
  | 0, s, v, stk, h, _ => by have := size_pos v; omega
  | n + 1, s, v, stk, h, hs => by
    cases hv : v.isNil with
    | true =>
      rw [eq_nil hv, editN_nil]
      refine ⟨trivial, ⟨(by rintro ⟨_, _, _, _, _, h⟩; cases h), (by intro h; cases h)⟩, ?_⟩
      intro w hw z hz
      cases hw with
      | here => cases hz
      | child _ x _ hx => simp [slots] at hx
    | false =>
      rw [editN_cb mergeNode n s v stk hv]
      dsimp only
      generalize hv1 : (mergeNode v).getD v = v1
      have hsl : ∀ x ∈ slots v1, WellShaped x ∧ size x ≤ n := by
        intro x hx
        cases hm : mergeNode v with
        | none =>
          rw [hm] at hv1; simp at hv1; subst hv1
          have := size_slot_lt hx
          exact ⟨shaped_slot hs hx, by omega⟩
        | some y =>
          rw [hm] at hv1; simp at hv1; subst hv1
          have ha := asList_inside v y (mergeNode_asList hm)
          have := size_slot_lt hx
          exact ⟨fun w hw => hs w (inside_trans (ha.2 x hx) hw), by omega⟩
      have hshape : Shape v1 := by
        cases hm : mergeNode v with
        | none => rw [hm] at hv1; simp at hv1; subst hv1; exact hs v (.here v)
        | some y =>
          rw [hm] at hv1; simp at hv1; subst hv1
          obtain ⟨_, _, _, _, _, rfl⟩ := asList_list (mergeNode_asList hm)
          trivial
      obtain ⟨k, hk, hk2⟩ := fold_edit mergeNode rfl n (stk ++ [v1]) (slots v1) (weakSlots v1) (s || (mergeNode v).isSome) [] (weakSlots_length v1)
        (weak_merge v1 hshape)
      rw [hk, List.nil_append]
      have hk3 : Forall2 (fun x y => WellShaped x ∧ size x ≤ n → leafKept x y ∧ ((∃ c p l t m, y = .list c p l t m) ↔ (asList x).isSome = true) ∧
          ∀ w, Inside y w → ∀ z, ¬ Merge w z) (slots v1) k := by
        refine forall2_imp hk2 ?_
        rintro x y ⟨s', rfl⟩ ⟨h1, h2⟩
        exact merge_done n s' x _ h2 h1
      have hk4 := forall2_mem hk3 hsl
      have hlen : k.length = (slots v1).length := forall2_length hk4
      have hlen1 : lenOk v1 := by cases v1 <;> first | exact hshape | trivial
      have hfit : fits v1 k := fits_of_kept v1 hlen1 k (forall2_imp hk4 fun _ _ h => h.1)
      refine ⟨?_, ?_, ?_⟩
      · cases hm : mergeNode v with
        | none =>
          rw [hm] at hv1; simp at hv1; subst hv1
          cases v with
          | ident i => exact ⟨i, by cases k <;> rfl⟩
          | string i => exact ⟨i, by cases k <;> rfl⟩
          | _ => trivial
        | some y =>
          cases v with
          | binary => trivial
          | _ => cases hm
      · rw [withSlots_list, asList_of]
        cases hm : mergeNode v with
        | none => rw [hm] at hv1; simp at hv1; subst hv1; simp
        | some y =>
          rw [hm] at hv1; simp at hv1; subst hv1
          obtain ⟨c, p, l, t, m, h⟩ := asList_list (mergeNode_asList hm)
          simp only [Option.isSome_some, true_or, iff_true]
          exact ⟨c, p, l, t, m, h⟩
      · intro w hw z hz
        cases hw with
        | child _ x _ hx hw =>
          rw [slots_withSlots v1 k hfit] at hx
          exact forall2_right hk4 (fun _ _ h => h.2.2) x hx w hw z hz
        | here =>
          generalize hW : withSlots v1 k = W at hz
          cases hz with
          | mk c p lb c1 p1 l e1 m1 c2 p2 k2 e2 m2 =>
            obtain ⟨x', y', rfl, rfl⟩ := withSlots_binary hW hlen
            have h1 : mergeNode v = none := by
              cases hm : mergeNode v with
              | none => rfl
              | some y =>
                rw [hm] at hv1; simp at hv1; subst hv1
                obtain ⟨_, _, _, _, _, h⟩ := asList_list (mergeNode_asList hm)
                cases h
            rw [h1] at hv1
            simp at hv1
            subst hv1
            simp only [slots] at hk4
            cases hk4 with
            | cons ha hb =>
              cases hb with
              | cons hb _ =>
                have ha := ha.2.1.1 ⟨_, _, _, _, _, rfl⟩
                have hb := hb.2.1.1 ⟨_, _, _, _, _, rfl⟩
                obtain ⟨a, ha⟩ := Option.isSome_iff_exists.1 ha
                obtain ⟨b, hb⟩ := Option.isSome_iff_exists.1 hb
                obtain ⟨_, _, _, _, _, rfl⟩ := asList_list ha
                obtain ⟨_, _, _, _, _, rfl⟩ := asList_list hb
                simp [mergeNode, asList, ha, hb] at h1

/-- **C80**: afterwards no two literal lists are added anywhere in the rule. -/
theorem C80_merge_complete (r : Expr) (hr : WellShaped r) : ∀ w, Inside (mergeLists r).1 w → ∀ z, ¬ Merge w z :=
  (merge_done _ _ _ _ (Nat.le_refl _) hr).2.2

theorem merge_match (w : Expr) : (mergeNode w).isSome = true → ∃ u z, Inside w u ∧ Merge u z := by
  induction w using asList.induct with
  | case1 c p l t m => intro h; cases h
  | case2 c x p lb y c1 p1 l e1 m1 c2 p2 k e2 m2 h1 h2 ih1 ih2 =>
    intro _
    have hx := (asList_of x).1 (by rw [h2]; rfl)
    have hy := (asList_of y).1 (by rw [h1]; rfl)
    rcases hx with hx | ⟨_, _, _, _, _, rfl⟩
    · obtain ⟨u, z, hu, hz⟩ := ih1 hx
      exact ⟨u, z, .child _ x u (by simp [slots]) hu, hz⟩
    · rcases hy with hy | ⟨_, _, _, _, _, rfl⟩
      · obtain ⟨u, z, hu, hz⟩ := ih2 hy
        exact ⟨u, z, .child _ y u (by simp [slots]) hu, hz⟩
      · exact ⟨_, _, .here _, .mk ..⟩
  | case3 c x p lb y hno ih1 ih2 =>
    intro h
    obtain ⟨z, hz⟩ := Option.isSome_iff_exists.1 h
    obtain ⟨_, _, _, _, _, _, _, _, _, _, _, h4, h5, _⟩ := asList_binary (c := c) (p := p) (lb := lb) hz
    exact (hno _ _ _ _ _ _ _ _ _ _ h4 h5).elim
  | case4 c x p o lb y h =>
    intro hh
    obtain ⟨z, hz⟩ := Option.isSome_iff_exists.1 hh
    have := (asList_binary (c := c) (p := p) (lb := lb) hz).1
    exact absurd this h
  | case5 e h1 h2 =>
    intro h
    unfold mergeNode at h
    split at h
    · exact absurd rfl (h2 _ _ _ _ _ _)
    · cases h

/-- **C80**: `mergeLiteralLists` reports a fix iff two literal lists are added somewhere in the rule. -/
theorem C80_merge_reported (r : Expr) : (mergeLists r).2 = true ↔ ∃ w z, Inside r w ∧ Merge w z := by
  rw [mergeLists, edit_reported mergeNode rfl]
  constructor
  · rintro ⟨w, hw, h⟩
    obtain ⟨u, z, hu, hz⟩ := merge_match w h
    exact ⟨u, z, inside_trans hw hu, hz⟩
  · rintro ⟨w, z, hw, hz⟩
    refine ⟨w, hw, ?_⟩
    cases hz
    simp [mergeNode, asList]

def num (s : Bytes) : Expr := .literal {} {} s
def plus (x y : Expr) : Expr := .binary {} x {} b!"+" false y

example : mergeLists (call b!"f" [kw b!"srcs" (plus (plus (lst [num b!"1"]) (lst [num b!"2"])) (plus (.ident { name := b!"x" }) (lst [plus (lst []) (lst [])])))]) =
    (call b!"f" [kw b!"srcs" (plus (lst [num b!"1", num b!"2"]) (plus (.ident { name := b!"x" }) (lst [lst []])))], true) := rfl

/-- **C80**: the comments at the second list, at its end and at the sum are lost. -/
theorem C80_merge_comments (c : Comments) (e : EndN) :
    (mergeLists (call b!"f" [.binary c (lst [num b!"1"]) {} b!"+" false (.list c {} [num b!"2"] e true)])).1 = call b!"f" [lst [num b!"1", num b!"2"]] := rfl

/-! ## varref and glob -/

theorem varref_some {x y : Expr} (h : varref x = some y) : Varref x y := by
  unfold varref at h
  split at h
  · rename_i c i p s e a b
    split at h
    · rename_i hi
      injection h with h
      subst h
      obtain ⟨ci, pi, n⟩ := i
      subst hi
      exact .mk ..
    · cases h
  · cases h

theorem varref_iff (x : Expr) : (varref x).isSome = true ↔ ∃ y, Varref x y := by
  constructor
  · intro h
    obtain ⟨y, h⟩ := Option.isSome_iff_exists.1 h
    exact ⟨y, varref_some h⟩
  · rintro ⟨y, h⟩
    cases h
    simp [varref]

/-- **C80**: unless the rule itself is a call of `varref`, the fix `varref` does nothing but replace `varref("x")` by `"$(x)"`, and it reports a fix
iff there is such a call in the rule. -/
theorem C80_varref (r : Expr) (hr : ∀ y, ¬ Varref r y) :
    Steps Varref r (removeVarref r).1 ∧ ((removeVarref r).2 = true ↔ ∃ w y, Inside r w ∧ Varref w y) := by
  have h0 : varref r = none := by
    cases h : varref r with
    | none => rfl
    | some y => exact absurd (varref_some h) (hr y)
  rw [removeVarref, h0]
  refine ⟨edit_steps varref (fun x y h => .step _ _ (varref_some h)) _ _ _ _, ?_⟩
  dsimp only
  rw [edit_reported varref rfl]
  simp only [varref_iff]
  exact ⟨fun ⟨w, h, y, h2⟩ => ⟨w, y, h, h2⟩, fun ⟨w, y, h, h2⟩ => ⟨w, h, y, h2⟩⟩

example : removeVarref (call b!"f" [kw b!"cmd" (plus (call b!"varref" [str b!"X"]) (str b!" y"))]) =
    (call b!"f" [kw b!"cmd" (plus (str b!"$(X)") (str b!" y"))], true) := rfl

theorem glob_some {strip : Bool} {x y : Expr} (h : globCall strip x = some y) : Glob strip x y := by
  unfold globCall at h
  split at h
  · rename_i c i p a l e u v
    split at h
    · rename_i hi
      injection h with h
      subst h
      obtain ⟨ci, pi, n⟩ := i
      subst hi
      exact .mk ..
    · cases h
  · cases h

/-- **C80**: `sortGlob` does nothing but sort the first argument of calls of `glob`; it reports a fix iff there is one with an argument, whether or not
it was sorted. -/
theorem C80_glob (strip : Bool) (r : Expr) :
    Steps (Glob strip) r (sortGlob strip r).1 ∧ ((sortGlob strip r).2 = true ↔ ∃ w y, Inside r w ∧ Glob strip w y) := by
  refine ⟨edit_steps (globCall strip) (step := Glob strip) (fun x y h => .step _ _ (glob_some h)) _ _ _ _, ?_⟩
  rw [sortGlob, edit_reported _ rfl]
  constructor
  · rintro ⟨w, hw, h⟩
    obtain ⟨y, h⟩ := Option.isSome_iff_exists.1 h
    exact ⟨w, y, hw, glob_some h⟩
  · rintro ⟨w, y, hw, h⟩
    cases h
    exact ⟨_, hw, by simp [globCall]⟩

example : sortGlob true (call b!"f" [kw b!"srcs" (call b!"glob" [lst [str b!"b", str b!"a"]])]) =
    (call b!"f" [kw b!"srcs" (call b!"glob" [lst [str b!"a", str b!"b"]])], true) := by rfl

/-- **C80**: a rule with a sorted `glob` is reported as fixed although nothing changes. -/
theorem C80_glob_always :
    sortGlob true (call b!"f" [kw b!"srcs" (call b!"glob" [lst [str b!"a"]])]) = (call b!"f" [kw b!"srcs" (call b!"glob" [lst [str b!"a"]])], true) := by rfl

/-! ## FixRule -/

theorem setAttr_same (key : Bytes) : ∀ l, attr key l ≠ .nil → setAttr key (attr key l) l = l := by
  have h : ∀ l, attr key l ≠ .nil → setFirst key (attr key l) l = some l := by
    intro l
    induction l with
    | nil => intro h; exact absurd rfl h
    | cons x l ih =>
      intro hne
      by_cases hx : ∃ c i p o lb r, x = .assign c (.ident i) p o lb r
      · obtain ⟨c, i, p, o, lb, r, rfl⟩ := hx
        rw [setFirst]
        rw [attr] at hne ⊢
        split
        · rename_i hi
          rw [if_pos hi] at hne
          rw [ih hne]
          rfl
        · rfl
      · have hd : ¬ Props.Attr.Defines key x := fun ⟨c, i, p, o, lb, r, h, _⟩ => hx ⟨c, i, p, o, lb, r, h⟩
        rw [Props.Attr.attr_skip _ _ _ hd] at hne ⊢
        rw [Props.Attr.setFirst_skip _ _ _ _ hd, ih hne]
        rfl
  intro l hne
  rw [setAttr, h l hne]

theorem onAttr_same (key : Bytes) (f : Expr → Expr) (args : List Expr) (h : f (attr key args) = attr key args) : onAttr key f args = args := by
  unfold onAttr
  split
  · rfl
  · rename_i hn
    rw [h]
    exact setAttr_same key args fun hh => hn (by rw [hh]; rfl)

theorem onLists_same (f : List Expr → List Expr) (v : Expr) (h : ∀ l ∈ allLists v, f l = l) : onLists f v = v := by
  induction v using onLists.induct with
  | case1 c p l e m => rw [onLists, h l (by simp [allLists])]
  | case2 c x p lb y ih1 ih2 =>
    rw [onLists, if_pos rfl, ih1 fun l hl => h l (by simp [allLists, hl]), ih2 fun l hl => h l (by simp [allLists, hl])]
  | case3 c x p o lb y hne => rw [onLists, if_neg hne]
  | case4 e h1 h2 =>
    unfold onLists; split
    · exact absurd rfl (h1 _ _ _ _ _)
    · exact absurd rfl (h2 _ _ _ _ _ _)
    · rfl

theorem splitStrings_same (l : List Expr) (h : l.any splits = false) : splitStrings l = l := by
  induction l with
  | nil => rfl
  | cons x l ih =>
    rw [List.any_cons, Bool.or_eq_false_iff] at h
    rw [splitStrings, List.flatMap_cons]
    have : splitElem x = [x] := by
      cases x with
      | string s => have := h.1; rw [splits] at this; rw [splitElem, if_neg (by simp [this])]
      | _ => rfl
    rw [this]
    have := ih h.2
    rw [splitStrings] at this
    rw [this]
    rfl

theorem any_flatten_false {f : Expr → Bool} {v : Expr} (h : (allLists v).flatten.any f = false) : ∀ l ∈ allLists v, l.any f = false := by
  intro l hl
  rw [Bool.eq_false_iff] at h ⊢
  intro hh
  apply h
  rw [List.any_eq_true] at hh ⊢
  obtain ⟨x, hx, hf⟩ := hh
  exact ⟨x, List.mem_flatten.2 ⟨l, hl, hx⟩, hf⟩

theorem shorten_same (pkg : Bytes) (l : List Expr) (h : l.any (shortens pkg) = false) : l.map (shortenElem pkg) = l := by
  induction l with
  | nil => rfl
  | cons x l ih =>
    rw [List.any_cons, Bool.or_eq_false_iff] at h
    rw [List.map_cons, ih h.2]
    congr 1
    cases x with
    | string s =>
      have := h.1
      simp only [shortens, ne_eq, decide_not, Bool.not_eq_false', decide_eq_true_eq] at this
      rw [shortenElem, ← this]
    | _ => rfl

theorem onStrings_same (f : Bytes → Bytes) (v : Expr) (h : ∀ s ∈ allStrings v, f s = s) : onStrings f v = v := by
  induction v using onStrings.induct with
  | case1 s => rw [onStrings, h s.value (by simp [allStrings])]
  | case2 c x p lb y ih1 ih2 =>
    rw [onStrings, if_pos rfl, ih1 fun l hl => h l (by simp [allStrings, hl]), ih2 fun l hl => h l (by simp [allStrings, hl])]
  | case3 c x p o lb y hne => rw [onStrings, if_neg hne]
  | case4 e h1 h2 =>
    unfold onStrings; split
    · exact absurd rfl (h1 _)
    · exact absurd rfl (h2 _ _ _ _ _ _)
    · rfl

theorem setArgs_same (r : Expr) : setArgs r (argsOf r) = r := by cases r <;> rfl

theorem fix_same (k : Ctx) (stmts : List Expr) (r : Expr) (hok : treeOk r) : ∀ nf ∈ ruleFixes k, (nf.2 stmts r).2 = false → (nf.2 stmts r).1 = r := by
  intro nf hnf
  simp only [ruleFixes, List.mem_cons, List.not_mem_nil, or_false] at hnf
  rcases hnf with rfl | rfl | rfl | rfl | rfl | rfl | rfl | rfl | rfl | rfl <;> dsimp only <;> intro h
  · exact edit_unchanged _ rfl r hok h
  · simp only [splitOptions, List.any_cons, List.any_nil, Bool.or_false, Bool.or_eq_false_iff] at h
    have h1 : onAttr b!"copts" (onLists splitStrings) (argsOf r) = argsOf r :=
      onAttr_same _ _ _ (onLists_same _ _ fun l hl => splitStrings_same l (any_flatten_false h.1 l hl))
    have h2 : onAttr b!"linkopts" (onLists splitStrings) (argsOf r) = argsOf r :=
      onAttr_same _ _ _ (onLists_same _ _ fun l hl => splitStrings_same l (any_flatten_false h.2 l hl))
    show setArgs r (onAttr b!"linkopts" _ (onAttr b!"copts" _ (argsOf r))) = r
    rw [h1, h2, setArgs_same]
  · have key : ∀ (keys : List Bytes) (s : List Expr × Bool), (keys.foldl (shortenStep (k.containsLabels (kind r)) k.pkg) s).2 = false →
        s.2 = false ∧ (keys.foldl (shortenStep (k.containsLabels (kind r)) k.pkg) s).1 = s.1 := by
      intro keys
      induction keys with
      | nil => intro s h; exact ⟨h, rfl⟩
      | cons key keys ih =>
        intro s h
        rw [List.foldl_cons] at h ⊢
        have hi := ih _ h
        rw [hi.2]
        have h1 := hi.1
        unfold shortenStep at h1 ⊢
        split
        · rename_i hl
          rw [if_pos hl] at h1
          simp only [Bool.or_eq_false_iff] at h1
          exact ⟨h1.1, onAttr_same _ _ _ (onLists_same _ _ fun l hl => shorten_same _ l (any_flatten_false h1.2 l hl))⟩
        · rename_i hl
          rw [if_neg hl] at h1
          exact ⟨h1, rfl⟩
    have := key (attrKeys (argsOf r)) (argsOf r, false) h
    show setArgs r _ = r
    rw [this.2, setArgs_same]
  · unfold removeVisibility at h ⊢
    dsimp only at h ⊢
    split at h <;> rename_i h1
    · rw [if_pos h1]
    · rw [if_neg h1]
      split at h <;> rename_i h2
      · rw [if_pos h2]
      · cases h
  · unfold removeTestOnly at h ⊢
    cases hd : defaultTestOnly stmts (kind r) k.pkg with
    | none => rfl
    | some d =>
      rw [hd] at h
      dsimp only at h ⊢
      split
      · rename_i h1; rw [if_pos h1] at h; cases h
      · rfl
  · unfold renameDepsTools at h ⊢
    split at h <;> rename_i h1
    · rw [if_pos h1]
      split at h
      · cases h
      · rfl
    · rw [if_neg h1]
  · unfold heuristicLabels at h ⊢
    split at h <;> rename_i h1
    · rw [if_pos h1]
    · rw [if_neg h1]
      dsimp only at h ⊢
      rw [onAttr_same, setArgs_same]
      apply onStrings_same
      intro s hs
      rw [List.any_eq_false] at h
      have := h s hs
      simpa using this
  · unfold sortExports at h ⊢
    split at h <;> rename_i h1
    · rw [if_pos h1]
      split at h
      · rfl
      · cases h
    · rw [if_neg h1]
  · unfold removeVarref at h ⊢
    split at h
    · cases h
    · exact edit_unchanged _ rfl r hok h
  · exact edit_unchanged _ rfl r hok h

theorem set_getD (l : List Expr) (i : Nat) : l.set i (l.getD i .nil) = l := by
  by_cases h : i < l.length
  · rw [List.getD_eq_getElem?_getD, List.getElem?_eq_getElem h]
    simp
  · rw [List.set_eq_of_length_le (by omega)]

theorem fixLoop_nil (names : List Bytes) (i : Nat) : ∀ (fs : List (Bytes × (List Expr → Expr → Expr × Bool))) (stmts : List Expr) (fl : Bool),
    (∀ nf ∈ fs, (nf.2 stmts (stmts.getD i .nil)).2 = false → (nf.2 stmts (stmts.getD i .nil)).1 = stmts.getD i .nil) →
    (fixLoop names i fs (stmts, fl)).2 = false → fl = false ∧ (fixLoop names i fs (stmts, fl)).1 = stmts := by
  have mono : ∀ (fs : List (Bytes × (List Expr → Expr → Expr × Bool))) (s : List Expr × Bool), (fixLoop names i fs s).2 = false → s.2 = false := by
    intro fs
    induction fs with
    | nil => intro s h; exact h
    | cons nf fs ih =>
      intro s h
      obtain ⟨n, fn⟩ := nf
      rw [fixLoop] at h
      split at h
      · have := ih _ h
        simp only [Bool.or_eq_false_iff] at this
        exact this.2
      · exact ih _ h
  intro fs
  induction fs with
  | nil => intro stmts fl _ h; exact ⟨h, rfl⟩
  | cons nf fs ih =>
    intro stmts fl hs h
    obtain ⟨n, fn⟩ := nf
    rw [fixLoop] at h ⊢
    split at h <;> rename_i hn
    · rw [if_pos hn]
      have h1 := mono _ _ h
      simp only [Bool.or_eq_false_iff] at h1
      dsimp only at h ⊢
      have h2 := hs (n, fn) (by simp) h1.1
      dsimp only at h2
      rw [h2, h1.1, set_getD] at h ⊢
      exact ih _ _ (fun nf hnf => hs nf (by simp [hnf])) h
    · rw [if_neg hn]
      exact ih _ _ (fun nf hnf => hs nf (by simp [hnf])) h

/-- **C80**: when `FixRule` returns nil, nothing in the file was changed. -/
theorem C80_fix_nil (k : Ctx) (names : List Bytes) (i : Nat) (stmts : List Expr) (hr : WellShaped (stmts.getD i .nil))
    (h : fixRule k names i stmts = none) : (fixLoop names i (ruleFixes k) (stmts, false)).1 = stmts := by
  refine (fixLoop_nil names i (ruleFixes k) stmts false (fix_same k stmts _ (shaped_treeOk _ hr)) ?_).2
  unfold fixRule at h
  dsimp only at h
  split at h
  · cases h
  · rename_i h1; simpa using h1

theorem fixLoop_frame (names : List Bytes) (i : Nat) : ∀ (fs : List (Bytes × (List Expr → Expr → Expr × Bool))) (s : List Expr × Bool),
    (fixLoop names i fs s).1.length = s.1.length ∧ ∀ j, j ≠ i → (fixLoop names i fs s).1[j]? = s.1[j]? := by
  intro fs
  induction fs with
  | nil => intro s; exact ⟨rfl, fun _ _ => rfl⟩
  | cons nf fs ih =>
    intro s
    obtain ⟨n, fn⟩ := nf
    rw [fixLoop]
    split
    · have := ih (s.1.set i (fn s.1 (s.1.getD i .nil)).1, (fn s.1 (s.1.getD i .nil)).2 || s.2)
      refine ⟨by rw [this.1]; simp, fun j hj => ?_⟩
      rw [this.2 j hj]
      simp [Ne.symm hj]
    · exact ih s

/-- **C80**: `FixRule` leaves every statement of the file but the rule it is given as it is. -/
theorem C80_frame (k : Ctx) (names : List Bytes) (i : Nat) (stmts out : List Expr) (h : fixRule k names i stmts = some out) :
    out.length = stmts.length ∧ ∀ j, j ≠ i → out[j]? = stmts[j]? := by
  unfold fixRule at h
  dsimp only at h
  split at h
  · injection h with h
    subst h
    exact fixLoop_frame names i (ruleFixes k) (stmts, false)
  · cases h

/-- The names of the rule fixes of buildozer, in the order they run (README of buildozer, AllRuleFixes). -/
def fixNames : List Bytes :=
  [b!"sortGlob", b!"splitOptions", b!"shortenLabels", b!"removeVisibility", b!"removeTestOnly", b!"genruleRenameDepsTools", b!"genruleFixHeuristicLabels",
   b!"sortExportsFiles", b!"varref", b!"mergeLiteralLists"]

theorem fixLoop_unknown (names : List Bytes) (hne : names ≠ []) (i : Nat) : ∀ (fs : List (Bytes × (List Expr → Expr → Expr × Bool))) (s : List Expr × Bool),
    (∀ nf ∈ fs, nf.1 ∉ names) → fixLoop names i fs s = s := by
  intro fs
  induction fs with
  | nil => intro s _; rfl
  | cons nf fs ih =>
    intro s h
    obtain ⟨n, fn⟩ := nf
    rw [fixLoop, if_neg (by rintro (h1 | h1); exact hne h1; exact h (n, fn) (by simp) h1)]
    exact ih s fun nf hnf => h nf (by simp [hnf])

/-- **C80**: a call that names only unknown fixes does nothing. -/
theorem C80_unknown (k : Ctx) (names : List Bytes) (hne : names ≠ []) (h : ∀ n ∈ names, n ∉ fixNames) (i : Nat) (stmts : List Expr) :
    fixRule k names i stmts = none := by
  have : fixLoop names i (ruleFixes k) (stmts, false) = (stmts, false) := by
    apply fixLoop_unknown names hne
    intro nf hnf hn
    apply h _ hn
    have : nf.1 ∈ (ruleFixes k).map (·.1) := List.mem_map_of_mem hnf
    exact this
  unfold fixRule
  rw [this]
  rfl

/-- **C80**: a call that names no fix runs all of them. -/
theorem C80_all (k : Ctx) (i : Nat) (stmts : List Expr) : fixRule k [] i stmts = fixRule k fixNames i stmts := by
  have : ∀ (fs : List (Bytes × (List Expr → Expr → Expr × Bool))) (s : List Expr × Bool), (∀ nf ∈ fs, nf.1 ∈ fixNames) →
      fixLoop [] i fs s = fixLoop fixNames i fs s := by
    intro fs
    induction fs with
    | nil => intro s _; rfl
    | cons nf fs ih =>
      intro s h
      obtain ⟨n, fn⟩ := nf
      have hn : n ∈ fixNames := h (n, fn) (by simp)
      rw [fixLoop, fixLoop, if_pos (.inl rfl), if_pos (.inr hn)]
      exact ih _ fun nf hnf => h nf (by simp [hnf])
  unfold fixRule
  rw [this]
  intro nf hnf
  have : nf.1 ∈ (ruleFixes k).map (·.1) := List.mem_map_of_mem hnf
  exact this

/-- **C80**: `fix mergeLiteralLists` is what `mergeLiteralLists` does to the rule, and nothing else. -/
theorem C80_one (k : Ctx) (i : Nat) (stmts : List Expr) :
    fixRule k [b!"mergeLiteralLists"] i stmts =
      if (mergeLists (stmts.getD i .nil)).2 then some (stmts.set i (mergeLists (stmts.getD i .nil)).1) else none := by
  unfold fixRule
  have : fixLoop [b!"mergeLiteralLists"] i (ruleFixes k) (stmts, false) = (stmts.set i (mergeLists (stmts.getD i .nil)).1, (mergeLists (stmts.getD i .nil)).2) := by
    simp [ruleFixes, fixLoop]
  rw [this]

def ctx0 : Ctx := { strip := true, containsLabels := fun _ _ => false, srt := id, pkg := b!"a" }

example : fixRule ctx0 [b!"varref", b!"mergeLiteralLists"] 1 [num b!"1", call b!"f" [kw b!"srcs" (plus (lst [num b!"1"]) (lst [call b!"varref" [str b!"X"]]))]] =
    some [num b!"1", call b!"f" [kw b!"srcs" (lst [num b!"1", str b!"$(X)"])]] := rfl

example : fixRule ctx0 [] 0 [call b!"f" [kw b!"srcs" (lst [num b!"1"])]] = none := rfl

end Verif.Props.FixTree
