import Verif.Model.BuildWarn
import Verif.Props.Walk
import Verif.Props.Rules
import Verif.Proofs.MapE
/-
**C84** Checks of BUILD files: duplicated names, constant globs, `native`, positional arguments, `*args`, `print`.

The nodes of a file are listed, with their ancestors, by `Props.Walk.occ` (C26).
-/
namespace Verif.Props.BuildWarn
open Verif Verif.Syntax Verif.Walk Verif.BuildWarn Verif.Props.Walk Verif.Props.Rules

/-! ## Specification -/

/-- a call -/
def IsCall (e : Expr) : Prop := ∃ c x p l t a b, e = .call c x p l t a b

instance (e : Expr) : Decidable (IsCall e) := by
  cases e <;> first | exact isTrue ⟨_, _, _, _, _, _, _, rfl⟩ | exact isFalse (by rintro ⟨_, _, _, _, _, _, _, h⟩; cases h)

/-- the calls of a file that are not inside another call, in order -/
def rulesOf (stmts : List Expr) : List Expr :=
  ((occL [] stmts).filter fun q => decide (IsCall q.2 ∧ ∀ a ∈ q.1, ¬ IsCall a)).map (·.2)

/-- the call is given the name `n` (not empty) -/
def HasName (e : Expr) (n : Bytes) : Prop := n ≠ [] ∧ ∃ c x p l t a b, e = .call c x p l t a b ∧ explicitName l = n

/-- `r` is the list of those elements of `l` whose name some element before (in `before` or in `l`) has too -/
inductive Repeated : List Expr → List Expr → List Expr → Prop
  | nil (before) : Repeated before [] []
  | yes (before e l r e' n) : HasName e n → e' ∈ before → HasName e' n → Repeated (before ++ [e]) l r → Repeated before (e :: l) (e :: r)
  | no (before e l r) : (∀ e' ∈ before, ∀ n, HasName e n → ¬ HasName e' n) → Repeated (before ++ [e]) l r → Repeated before (e :: l) r

/-- a string without a star -/
def Constant (e : Expr) : Prop := ∃ s : StringN, e = .string s ∧ ∀ c ∈ s.value, c ≠ c!"*"

/-- `e` is the first constant pattern of the list -/
def FirstConstant (l : List Expr) (e : Expr) : Prop := ∃ a b, l = a ++ e :: b ∧ Constant e ∧ ∀ x ∈ a, ¬ Constant x

/-- the argument `include = […]` -/
def Include (ps : List Expr) (e : Expr) : Prop := ∃ c ci pi p op lb c' p' t fm, e = .assign c (.ident ⟨ci, pi, b!"include"⟩) p op lb (.list c' p' ps t fm)

/-- the patterns of a glob: its first argument, if that is a list; else the first `include = […]` -/
inductive Patterns : List Expr → List Expr → Prop
  | first (c p ps t fm l) : Patterns (.list c p ps t fm :: l) ps
  | included (l a e b ps) : (∀ c p qs t fm m, l ≠ .list c p qs t fm :: m) → l = a ++ e :: b → Include ps e → (∀ x ∈ a, ∀ qs, ¬ Include qs x) → Patterns l ps

/-- the call `glob(l)` -/
inductive Glob (l : List Expr) : Expr → Prop
  | mk (c ci pi p t a b) : Glob l (.call c (.ident ⟨ci, pi, b!"glob"⟩) p l t a b)

/-- `native.x` -/
inductive Native (m : Bytes) : Expr → Prop
  | mk (c ci pi p q) : Native m (.dot c (.ident ⟨ci, pi, b!"native"⟩) p q m)

/-- `w` is `v` with every `native.x` replaced by `x` -/
inductive Unnative : Expr → Expr → Prop
  | native (v m) : Native m v → Unnative v (.ident { name := m })
  | other (v ks) : (∀ m, ¬ Native m v) → Forall2 Unnative (slots v) ks → Unnative v (withSlots v ks)

/-! ## All nodes -/

theorem foldl_collect (check : Expr → List Expr) : ∀ (l : List (List Expr × Expr)) (log : List Expr),
    l.foldl (fun log q => log ++ check q.2) log = log ++ l.flatMap fun q => check q.2
  | [], log => by simp
  | q :: l, log => by rw [List.foldl_cons, foldl_collect check l]; simp

theorem collect_eq (check : Expr → List Expr) (f : Expr) : collect check f = (occ [] f).flatMap fun q => check q.2 := by
  unfold collect
  rw [C26_walk_visits_every_node_once, foldl_collect]
  rfl

theorem mem_collect (check : Expr → List Expr) (f y : Expr) : y ∈ collect check f ↔ ∃ q ∈ occ [] f, y ∈ check q.2 := by
  rw [collect_eq, List.mem_flatMap]

theorem flatMap_filter (p : Expr → Bool) (l : List (List Expr × Expr)) :
    (l.flatMap fun q => if p q.2 then [q.2] else []) = (l.map (·.2)).filter p := by
  induction l with
  | nil => rfl
  | cons q l ih =>
    rw [List.flatMap_cons, ih, List.map_cons, List.filter_cons]
    split <;> simp

/-! ## Duplicated names -/

theorem isCall_iff (e : Expr) : Bzlmod.isCall e = true ↔ IsCall e := by
  cases e <;> first | exact ⟨fun _ => ⟨_, _, _, _, _, _, _, rfl⟩, fun _ => rfl⟩ | exact ⟨(by intro h; cases h), (by rintro ⟨_, _, _, _, _, _, _, h⟩; cases h)⟩

theorem rules_eq (stmts : List Expr) : Bzlmod.rules [] stmts = rulesOf stmts := by
  have key : ∀ (l : List (List Expr × Expr)) (all : List Expr),
      l.foldl (fun all q => Bzlmod.rulesCallback (fun x _ => ([] : Bytes) = [] || Edit.kindOf x = []) all q.2 q.1) all =
        all ++ (l.filter fun q => decide (IsCall q.2 ∧ ∀ a ∈ q.1, ¬ IsCall a)).map (·.2) := by
    intro l
    induction l with
    | nil => intro all; simp
    | cons q l ih =>
      intro all
      rw [List.foldl_cons, ih, List.filter_cons]
      obtain ⟨stk, e⟩ := q
      have hany : stk.any Bzlmod.isCall = true ↔ ∃ a ∈ stk, IsCall a := by
        rw [List.any_eq_true]
        exact ⟨fun ⟨a, h, h'⟩ => ⟨a, h, (isCall_iff a).1 h'⟩, fun ⟨a, h, h'⟩ => ⟨a, h, (isCall_iff a).2 h'⟩⟩
      by_cases hc : IsCall e
      · obtain ⟨c, x, p, l', t, a, b, rfl⟩ := hc
        by_cases hs : stk.any Bzlmod.isCall = true
        · have hn : ¬ (IsCall (.call c x p l' t a b) ∧ ∀ a ∈ stk, ¬ IsCall a) := by
            rintro ⟨_, h⟩
            obtain ⟨a, ha, hca⟩ := hany.1 hs
            exact h a ha hca
          simp only [Bzlmod.rulesCallback, if_pos hs, decide_eq_true_eq, if_neg hn]
        · have hy : IsCall (.call c x p l' t a b) ∧ ∀ a ∈ stk, ¬ IsCall a :=
            ⟨⟨_, _, _, _, _, _, _, rfl⟩, fun a ha hca => hs (hany.2 ⟨a, ha, hca⟩)⟩
          simp only [Bzlmod.rulesCallback, if_neg hs, decide_eq_true_eq, if_pos hy]
          simp
      · have hn : ¬ (IsCall e ∧ ∀ a ∈ stk, ¬ IsCall a) := fun h => hc h.1
        have hcb : ∀ p, Bzlmod.rulesCallback p all e stk = all := by
          intro p
          cases e <;> first | rfl | exact absurd ⟨_, _, _, _, _, _, _, rfl⟩ hc
        simp only [hcb, decide_eq_true_eq, if_neg hn]
  unfold Bzlmod.rules Bzlmod.rulesWhere rulesOf
  rw [occL_eq]
  have h2 : ∀ (stmts : List Expr) (all : List Expr),
      stmts.foldl (fun all stmt => walk (Bzlmod.rulesCallback fun x _ => ([] : Bytes) = [] || Edit.kindOf x = []) all stmt) all =
        (stmts.flatMap (occ [])).foldl (fun all q => Bzlmod.rulesCallback (fun x _ => ([] : Bytes) = [] || Edit.kindOf x = []) all q.2 q.1) all := by
    intro stmts
    induction stmts with
    | nil => intro all; rfl
    | cons s l ih => intro all; rw [List.foldl_cons, ih, List.flatMap_cons, List.foldl_append, C26_walk_visits_every_node_once]
  rw [h2, key, List.nil_append]

theorem nameOf_iff (e : Expr) (n : Bytes) : HasName e n ↔ n ≠ [] ∧ nameOf e = n := by
  constructor
  · rintro ⟨hn, c, x, p, l, t, a, b, rfl, h⟩
    exact ⟨hn, (attrString_explicit l).trans h⟩
  · rintro ⟨hn, h⟩
    refine ⟨hn, ?_⟩
    cases e
    case call => exact ⟨_, _, _, _, _, _, _, rfl, (attrString_explicit _).symm.trans h⟩
    all_goals exact absurd h.symm hn

theorem loop_repeated : ∀ (l before : List Expr) (seen : List Bytes), (∀ n, n ≠ [] → (n ∈ seen ↔ ∃ e ∈ before, nameOf e = n)) →
    Repeated before l (duplicatedLoop seen l)
  | [], before, seen, _ => .nil before
  | e :: l, before, seen, h => by
    unfold duplicatedLoop
    by_cases he : nameOf e = []
    · rw [if_pos he]
      refine .no _ _ _ _ (fun e' _ n hn => absurd ((nameOf_iff e n).1 hn) (by rw [he]; rintro ⟨h1, h2⟩; exact h1 h2.symm)) (loop_repeated l _ seen fun n hn => ?_)
      rw [h n hn]
      constructor
      · rintro ⟨e', he', hh⟩; exact ⟨e', by simp [he'], hh⟩
      · rintro ⟨e', he', hh⟩
        rcases List.mem_append.1 he' with h1 | h1
        · exact ⟨e', h1, hh⟩
        · rw [List.mem_singleton.1 h1, he] at hh; exact absurd hh.symm hn
    · rw [if_neg he]
      by_cases hs : seen.contains (nameOf e) = true
      · rw [if_pos hs]
        obtain ⟨e', he', hh⟩ := (h _ he).1 (List.contains_iff_mem.1 hs)
        refine .yes _ _ _ _ e' (nameOf e) ((nameOf_iff e _).2 ⟨he, rfl⟩) he' ((nameOf_iff e' _).2 ⟨he, hh⟩) (loop_repeated l _ seen fun n hn => ?_)
        rw [h n hn]
        constructor
        · rintro ⟨e', he', hh⟩; exact ⟨e', by simp [he'], hh⟩
        · rintro ⟨e'', he'', hh'⟩
          rcases List.mem_append.1 he'' with h1 | h1
          · exact ⟨e'', h1, hh'⟩
          · rw [List.mem_singleton.1 h1] at hh'; exact ⟨e', he', hh.trans hh'⟩
      · rw [if_neg hs]
        have hnot : ¬ ∃ e' ∈ before, nameOf e' = nameOf e := fun hx => hs (List.contains_iff_mem.2 ((h _ he).2 hx))
        refine .no _ _ _ _ (fun e' he' n hn hn' => hnot ⟨e', he', ?_⟩) (loop_repeated l _ _ fun n hn => ?_)
        · rw [((nameOf_iff e' n).1 hn').2, ((nameOf_iff e n).1 hn).2]
        · rw [List.mem_cons, h n hn]
          constructor
          · rintro (rfl | ⟨e', he', hh⟩)
            · exact ⟨e, by simp, rfl⟩
            · exact ⟨e', by simp [he'], hh⟩
          · rintro ⟨e', he', hh⟩
            rcases List.mem_append.1 he' with h1 | h1
            · exact .inr ⟨e', h1, hh⟩
            · rw [List.mem_singleton.1 h1] at hh; exact .inl hh.symm

/-- **C84**: exactly the rules are reported whose name an earlier rule has; the rules are the calls that are not inside another call, wherever they are. -/
theorem C84_duplicated (stmts : List Expr) : Repeated [] (rulesOf stmts) (duplicated stmts) := by
  unfold duplicated
  rw [rules_eq]
  exact loop_repeated _ _ _ fun n _ => by simp

theorem repeated_empty : ∀ {before l r : List Expr}, Repeated before l r → r = [] →
    l.Pairwise (fun e e' => ∀ n, HasName e n → ¬ HasName e' n) ∧ ∀ e ∈ before, ∀ e' ∈ l, ∀ n, HasName e n → ¬ HasName e' n
  | _, _, _, .nil _, _ => ⟨.nil, by simp⟩
  | _, _, _, .yes .., h => by cases h
  | _, _, _, .no before e l r hno hr, h => by
    obtain ⟨h1, h2⟩ := repeated_empty hr h
    refine ⟨.cons (fun e' he' n hn => h2 e (by simp) e' he' n hn) h1, ?_⟩
    intro e0 he0 e' he' n hn hn'
    rcases List.mem_cons.1 he' with rfl | hm
    · exact hno e0 he0 n hn' hn
    · exact h2 e0 (by simp [he0]) e' hm n hn hn'

theorem repeated_none : ∀ {before l r : List Expr}, Repeated before l r → l.Pairwise (fun e e' => ∀ n, HasName e n → ¬ HasName e' n) →
    (∀ e ∈ before, ∀ e' ∈ l, ∀ n, HasName e n → ¬ HasName e' n) → r = []
  | _, _, _, .nil _, _, _ => rfl
  | _, _, _, .yes _ _ _ _ e' n h1 h2 h3 _, _, hb => absurd h1 (hb e' h2 _ (by simp) n h3)
  | _, _, _, .no before e l r hno hr, hp, hb => by
    rw [List.pairwise_cons] at hp
    refine repeated_none hr hp.2 fun e0 he0 e' he' n hn => ?_
    rcases List.mem_append.1 he0 with h | h
    · exact hb e0 h e' (by simp [he']) n hn
    · rw [List.mem_singleton.1 h] at hn; exact hp.1 e' he' n hn

/-- **C84**: nothing is reported iff no two rules have the same name. -/
theorem C84_names_unique (stmts : List Expr) :
    duplicated stmts = [] ↔ (rulesOf stmts).Pairwise fun e e' => ∀ n, HasName e n → ¬ HasName e' n :=
  ⟨fun h => (repeated_empty (C84_duplicated stmts) h).1, fun h => repeated_none (C84_duplicated stmts) h (by simp)⟩

/-! ## Constant globs -/

theorem constant_iff (s : StringN) : Constant (.string s) ↔ s.value.contains c!"*" = false := by
  rw [Bool.eq_false_iff, Ne, List.contains_iff_mem]
  constructor
  · rintro ⟨s', h, hc⟩ hm
    cases h
    exact hc _ hm rfl
  · intro h
    exact ⟨s, rfl, fun c hc he => h (he ▸ hc)⟩

theorem constantPattern_some : ∀ {l : List Expr} {e : Expr}, constantPattern l = some e → FirstConstant l e
  | [], _, h => by cases h
  | x :: l, e, h => by
    have skip : constantPattern l = some e → ¬ Constant x → FirstConstant (x :: l) e := by
      intro h hx
      obtain ⟨a, b, rfl, hc, ha⟩ := constantPattern_some h
      refine ⟨x :: a, b, rfl, hc, fun y hy => ?_⟩
      rcases List.mem_cons.1 hy with rfl | hy
      · exact hx
      · exact ha y hy
    cases x
    case string s =>
      rw [constantPattern] at h
      by_cases hs : s.value.contains c!"*" = true
      · rw [if_pos hs] at h
        exact skip h (by rw [constant_iff, hs]; simp)
      · rw [if_neg hs] at h
        cases h
        exact ⟨[], l, rfl, (constant_iff s).2 (by simpa using hs), by simp⟩
    all_goals exact skip h (by rintro ⟨_, h, _⟩; cases h)

theorem constantPattern_none : ∀ {l : List Expr}, constantPattern l = none → ∀ x ∈ l, ¬ Constant x
  | [], _, _, hx => by cases hx
  | x :: l, h, y, hy => by
    have skip : constantPattern l = none → ¬ Constant x → ¬ Constant y := by
      intro h hx
      rcases List.mem_cons.1 hy with rfl | hy
      · exact hx
      · exact constantPattern_none h y hy
    cases x
    case string s =>
      rw [constantPattern] at h
      by_cases hs : s.value.contains c!"*" = true
      · rw [if_pos hs] at h
        exact skip h (by rw [constant_iff, hs]; simp)
      · rw [if_neg hs] at h; cases h
    all_goals exact skip h (by rintro ⟨_, h, _⟩; cases h)

theorem firstConstant_unique {l : List Expr} {e e' : Expr} (h : FirstConstant l e) (h' : FirstConstant l e') : e = e' := by
  obtain ⟨a, b, rfl, hc, ha⟩ := h
  obtain ⟨a', b', hl, hc', ha'⟩ := h'
  rcases List.append_eq_append_iff.1 hl with ⟨m, rfl, h2⟩ | ⟨m, rfl, h2⟩
  · cases m with
    | nil => simpa using (List.cons.inj h2).1
    | cons y m => exact absurd ((List.cons.inj h2).1 ▸ hc) (ha' _ (by simp))
  · cases m with
    | nil => simpa using (List.cons.inj h2).1.symm
    | cons y m => exact absurd ((List.cons.inj h2).1 ▸ hc') (ha _ (by simp))

theorem constantPattern_iff (l : List Expr) (e : Expr) : constantPattern l = some e ↔ FirstConstant l e := by
  refine ⟨constantPattern_some, fun h => ?_⟩
  cases hp : constantPattern l with
  | none =>
    obtain ⟨a, b, rfl, hc, _⟩ := h
    exact absurd hc (constantPattern_none hp e (by simp))
  | some e' => rw [firstConstant_unique (constantPattern_some hp) h]

theorem includeList_some : ∀ {l ps : List Expr}, includeList l = some ps → ∃ a e b, l = a ++ e :: b ∧ Include ps e ∧ ∀ x ∈ a, ∀ qs, ¬ Include qs x
  | [], _, h => by cases h
  | x :: l, ps, h => by
    have skip : includeList l = some ps → (∀ qs, ¬ Include qs x) → ∃ a e b, x :: l = a ++ e :: b ∧ Include ps e ∧ ∀ x ∈ a, ∀ qs, ¬ Include qs x := by
      intro h hx
      obtain ⟨a, e, b, rfl, hi, ha⟩ := includeList_some h
      refine ⟨x :: a, e, b, rfl, hi, fun y hy => ?_⟩
      rcases List.mem_cons.1 hy with rfl | hy
      · exact hx
      · exact ha y hy
    unfold includeList at h
    split at h
    · cases h
    · rename_i heq
      cases heq
      rename_i _ i _ _ _ _ _ _ _ _
      split at h
      · rename_i hn
        cases h
        obtain ⟨ci, pi, n⟩ := i
        cases hn
        exact ⟨[], _, l, rfl, ⟨_, _, _, _, _, _, _, _, _, _, rfl⟩, by simp⟩
      · rename_i hn
        exact skip h (by rintro qs ⟨_, _, _, _, _, _, _, _, _, _, h⟩; cases h; exact hn rfl)
    · rename_i hno heq
      cases heq
      exact skip h (by rintro qs ⟨_, _, _, _, _, _, _, _, _, _, h⟩; exact hno _ _ _ _ _ _ _ _ _ _ h)

theorem includeList_none : ∀ {l : List Expr}, includeList l = none → ∀ x ∈ l, ∀ qs, ¬ Include qs x
  | [], _, _, hx => by cases hx
  | x :: l, h, y, hy => by
    have skip : includeList l = none → (∀ qs, ¬ Include qs x) → ∀ qs, ¬ Include qs y := by
      intro h hx
      rcases List.mem_cons.1 hy with rfl | hy
      · exact hx
      · exact includeList_none h y hy
    unfold includeList at h
    split at h
    · rename_i heq; cases heq
    · rename_i heq
      cases heq
      split at h
      · cases h
      · rename_i hn
        exact skip h (by rintro qs ⟨_, _, _, _, _, _, _, _, _, _, h⟩; cases h; exact hn rfl)
    · rename_i hno heq
      cases heq
      exact skip h (by rintro qs ⟨_, _, _, _, _, _, _, _, _, _, h⟩; exact hno _ _ _ _ _ _ _ _ _ _ h)

theorem include_inj {ps qs : List Expr} {e : Expr} (h : Include ps e) (h' : Include qs e) : ps = qs := by
  obtain ⟨_, _, _, _, _, _, _, _, _, _, rfl⟩ := h
  obtain ⟨_, _, _, _, _, _, _, _, _, _, h⟩ := h'
  cases h
  rfl

theorem include_unique {a b a' b' ps qs : List Expr} {e e' : Expr} (h : a ++ e :: b = a' ++ e' :: b') (he : Include ps e) (he' : Include qs e')
    (ha : ∀ x ∈ a, ∀ qs, ¬ Include qs x) (ha' : ∀ x ∈ a', ∀ qs, ¬ Include qs x) : ps = qs := by
  rcases List.append_eq_append_iff.1 h with ⟨m, rfl, h2⟩ | ⟨m, rfl, h2⟩
  · cases m with
    | nil => exact include_inj he ((List.cons.inj h2).1 ▸ he')
    | cons y m => exact absurd ((List.cons.inj h2).1 ▸ he) (ha' _ (by simp) _)
  · cases m with
    | nil => exact include_inj he ((List.cons.inj h2).1 ▸ he')
    | cons y m => exact absurd ((List.cons.inj h2).1 ▸ he') (ha _ (by simp) _)

theorem globFinding_iff (x e : Expr) : globFinding x = some e ↔ ∃ l ps, Glob l x ∧ Patterns l ps ∧ FirstConstant ps e := by
  constructor
  · intro h
    unfold globFinding at h
    split at h
    · rename_i c i p a l t fc fm
      obtain ⟨ci, pi, n⟩ := i
      split at h
      · rename_i hn
        cases hn
        split at h
        · exact ⟨_, _, .mk _ _ _ _ _ _ _, .first _ _ _ _ _ _, constantPattern_some h⟩
        · rename_i hno
          obtain ⟨ps, hps, hc⟩ := Option.bind_eq_some_iff.1 h
          obtain ⟨a', e', b, hl, hi, ha⟩ := includeList_some hps
          exact ⟨_, _, .mk _ _ _ _ _ _ _, .included _ _ _ _ _ (by rintro _ _ _ _ _ _ h; cases h; exact hno _ _ _ _ _ rfl) hl hi ha, constantPattern_some hc⟩
      · cases h
    · cases h
  · rintro ⟨l, ps, ⟨c, ci, pi, p, t, fc, fm⟩, hp, hf⟩
    have hne : l ≠ [] := by
      cases hp with
      | first => simp
      | included _ a e b _ hh h => rw [h]; simp
    cases l with
    | nil => exact absurd rfl hne
    | cons a l =>
      simp only [globFinding, if_true]
      cases hp with
      | first => exact (constantPattern_iff _ _).2 hf
      | included _ a' e' b _ hno hl hi ha =>
        split
        · exact absurd rfl (hno _ _ _ _ _ _)
        · rw [Option.bind_eq_some_iff]
          cases hq : includeList (a :: l) with
          | none => exact absurd hi (includeList_none hq e' (by rw [hl]; simp) _)
          | some qs =>
            obtain ⟨a2, e2, b2, hl2, hi2, ha2⟩ := includeList_some hq
            rw [hl] at hl2
            rw [← include_unique hl2 hi hi2 ha ha2]
            exact ⟨_, rfl, (constantPattern_iff _ _).2 hf⟩

/-- **C84**: the constant patterns reported: for each glob of the file, in order, the first constant pattern, if there is one. -/
theorem C84_constant_glob (f : Expr) :
    ∃ g : Expr → List Expr, constantGlob f = (occ [] f).flatMap (fun q => g q.2) ∧
      ∀ x, (g x).length ≤ 1 ∧ ∀ e, e ∈ g x ↔ ∃ l ps, Glob l x ∧ Patterns l ps ∧ FirstConstant ps e := by
  refine ⟨fun x => (globFinding x).toList, collect_eq _ f, fun x => ⟨?_, fun e => ?_⟩⟩
  · cases globFinding x <;> simp
  · rw [← globFinding_iff, Option.mem_toList]

/-! ## `native` -/

theorem nativeMember_iff (e : Expr) (m : Bytes) : nativeMember e = some m ↔ Native m e := by
  constructor
  · intro h
    unfold nativeMember at h
    split at h
    · rename_i c i p q n
      obtain ⟨ci, pi, n'⟩ := i
      split at h
      · rename_i hn; cases hn; cases h; exact .mk _ _ _ _ _
      · cases h
    · cases h
  · rintro ⟨⟩; simp [nativeMember]

/-- **C84**: the uses of `native` reported are the nodes `native.x` of the file, in order. -/
theorem C84_native_reported (f e : Expr) : nativeUses f = ((occ [] f).map (·.2)).filter (fun x => (nativeMember x).isSome) ∧
    ((nativeMember e).isSome = true ↔ ∃ m, Native m e) := by
  refine ⟨?_, ?_⟩
  · unfold nativeUses
    rw [collect_eq, flatMap_filter fun x => (nativeMember x).isSome]
  · rw [Option.isSome_iff_exists]
    exact ⟨fun ⟨m, h⟩ => ⟨m, (nativeMember_iff e m).1 h⟩, fun ⟨m, h⟩ => ⟨m, (nativeMember_iff e m).2 h⟩⟩

theorem nativeN_fuel : ∀ (n m : Nat) (e : Expr), size e ≤ n → size e ≤ m → nativeN n e = nativeN m e := by
  intro n
  induction n with
  | zero => intro m e h; exact absurd (size_pos e) (by omega)
  | succ n ih =>
    intro m e hn hm
    cases m with
    | zero => exact absurd (size_pos e) (by omega)
    | succ m =>
      unfold nativeN
      cases nativeMember e with
      | some _ => rfl
      | none =>
        dsimp only
        congr 1
        refine List.map_congr_left fun x hx => ih m x ?_ ?_ <;> have := size_slot_lt hx <;> omega

theorem dropNative_eq (e : Expr) : dropNative e = match nativeMember e with
    | some m => .ident { name := m }
    | none => withSlots e ((slots e).map dropNative) := by
  unfold dropNative
  rw [show size e = (size e - 1) + 1 by have := size_pos e; omega, nativeN]
  cases nativeMember e with
  | some _ => rfl
  | none =>
    dsimp only
    congr 1
    refine List.map_congr_left fun x hx => ?_
    have := size_slot_lt hx
    exact nativeN_fuel _ _ x (by omega) (by omega)

theorem forall2_map_mem {R : Expr → Expr → Prop} {g : Expr → Expr} : ∀ (l : List Expr), (∀ x ∈ l, R x (g x)) → Forall2 R l (l.map g)
  | [], _ => .nil
  | x :: l, h => .cons (h x (by simp)) (forall2_map_mem l fun y hy => h y (by simp [hy]))

/-- **C84**: the fix replaces every `native.x` by `x` and changes nothing else. -/
theorem C84_native_fix (f : Expr) : Unnative f (dropNative f) := by
  refine slot_induction (P := fun f => Unnative f (dropNative f)) ?_ f
  intro v ih
  rw [dropNative_eq]
  cases h : nativeMember v with
  | some m => exact .native v m ((nativeMember_iff v m).1 h)
  | none =>
    refine .other v _ (fun m hm => ?_) (forall2_map_mem _ ih)
    rw [(nativeMember_iff v m).2 hm] at h
    cases h

theorem drop_same (f : Expr) : treeOk f → (∀ q ∈ occ [] f, ∀ m, ¬ Native m q.2) → dropNative f = f := by
  have key : ∀ f : Expr, treeOk f → ∀ stk, (∀ q ∈ occ stk f, ∀ m, ¬ Native m q.2) → dropNative f = f := by
    intro f
    refine slot_induction (P := fun f => treeOk f → ∀ stk, (∀ q ∈ occ stk f, ∀ m, ¬ Native m q.2) → dropNative f = f) ?_ f
    intro v ih hok stk hno
    rw [dropNative_eq]
    rw [treeOk_iff] at hok
    rw [occ_slots] at hno
    cases hnil : v.isNil with
    | true =>
      cases v
      case nil => rfl
      all_goals cases hnil
    | false =>
      rw [hnil, if_neg (by simp)] at hno
      have h1 : nativeMember v = none := by
        cases h : nativeMember v with
        | none => rfl
        | some m => exact absurd ((nativeMember_iff v m).1 h) (hno (stk, v) (by simp) m)
      rw [h1]
      dsimp only
      rw [show (slots v).map dropNative = (slots v).map id from
        List.map_congr_left fun x hx => ih x hx (hok.2 x hx) (stk ++ [v]) fun q hq => hno q (List.mem_cons_of_mem _ (List.mem_flatMap.2 ⟨x, hx, hq⟩)), List.map_id]
      exact withSlots_slots v hok.1
  exact fun hok h => key f hok [] h

/-- **C84**: a file without `native.x` is not changed. -/
theorem C84_native_none (f : Expr) (hok : treeOk f) (h : nativeUses f = []) : dropNative f = f := by
  refine drop_same f hok fun q hq m hm => ?_
  rw [(C84_native_reported f q.2).1, List.filter_eq_nil_iff] at h
  exact h q.2 (List.mem_map.2 ⟨q, hq, rfl⟩) ((C84_native_reported f q.2).2.2 ⟨m, hm⟩)

/-- `native.native.x` becomes `native.x`, which the next run replaces by `x` -/
theorem C84_native_twice_witness :
    let native : Expr := .ident { name := b!"native" }
    let e : Expr := .dot {} (.dot {} native {} {} b!"native") {} {} b!"x"
    dropNative e = .dot {} native {} {} b!"x" ∧ dropNative (dropNative e) = .ident { name := b!"x" } := ⟨rfl, rfl⟩

/-! ## The other checks -/

/-- the call `native.package(…)` -/
def NativePackage (e : Expr) : Prop := ∃ c c' ci pi p q p' l t a b, e = .call c (.dot c' (.ident ⟨ci, pi, b!"native"⟩) p q b!"package") p' l t a b

/-- the call `print(…)` -/
def Print (e : Expr) : Prop := ∃ c ci pi p l t a b, e = .call c (.ident ⟨ci, pi, b!"print"⟩) p l t a b

/-- `*x` or `**x` -/
def Starred (e : Expr) : Prop := ∃ c p op x, e = .unary c p op x ∧ (op = b!"*" ∨ op = b!"**")

theorem isNativePackage_iff (x : Expr) : isNativePackage x = true ↔ NativePackage x := by
  constructor
  · intro h
    unfold isNativePackage at h
    split at h
    · rename_i i _ _ n _ _ _ _ _
      obtain ⟨ci, pi, m⟩ := i
      obtain ⟨h1, h2⟩ := of_decide_eq_true h
      cases h1; cases h2
      exact ⟨_, _, _, _, _, _, _, _, _, _, _, rfl⟩
    · cases h
  · rintro ⟨_, _, _, _, _, _, _, _, _, _, _, rfl⟩
    simp [isNativePackage]

theorem isPrint_iff (x : Expr) : isPrint x = true ↔ Print x := by
  constructor
  · intro h
    unfold isPrint at h
    split at h
    · rename_i i _ _ _ _ _
      obtain ⟨ci, pi, m⟩ := i
      have := of_decide_eq_true h
      cases this
      exact ⟨_, _, _, _, _, _, _, _, rfl⟩
    · cases h
  · rintro ⟨_, _, _, _, _, _, _, _, rfl⟩
    simp [isPrint]

/-- **C84**: the calls of `native.package` are reported, in order, and nothing else. -/
theorem C84_native_package (f : Expr) :
    ∃ p : Expr → Bool, nativePackage f = ((occ [] f).map (·.2)).filter p ∧ ∀ x, p x = true ↔ NativePackage x :=
  ⟨isNativePackage, by unfold nativePackage; rw [collect_eq, flatMap_filter isNativePackage], isNativePackage_iff⟩

/-- **C84**: the calls of `print` are reported, in order, and nothing else. -/
theorem C84_print (f : Expr) : ∃ p : Expr → Bool, prints f = ((occ [] f).map (·.2)).filter p ∧ ∀ x, p x = true ↔ Print x :=
  ⟨isPrint, by unfold prints; rw [collect_eq, flatMap_filter isPrint], isPrint_iff⟩

theorem isStarred_iff (e : Expr) : isStarred e = true ↔ Starred e := by
  unfold isStarred Starred
  split
  · rw [Bool.or_eq_true, decide_eq_true_eq, decide_eq_true_eq]
    exact ⟨fun h => ⟨_, _, _, _, rfl, h⟩, fun ⟨_, _, _, _, h, h'⟩ => by cases h; exact h'⟩
  · rename_i hno
    refine ⟨(by intro h; cases h), ?_⟩
    rintro ⟨_, _, _, _, rfl, _⟩
    exact absurd rfl (hno _ _ _ _)

/-- **C84**: exactly the arguments `*x` and `**x` of calls are reported. -/
theorem C84_args_kwargs (f e : Expr) :
    e ∈ argsKwargs f ↔ Starred e ∧ ∃ stk c x p l t a b, (stk, .call c x p l t a b) ∈ occ [] f ∧ e ∈ l := by
  unfold argsKwargs
  rw [mem_collect]
  constructor
  · rintro ⟨⟨stk, x⟩, hq, he⟩
    dsimp only at he
    split at he
    · rw [List.mem_filter] at he
      exact ⟨(isStarred_iff e).1 he.2, _, _, _, _, _, _, _, _, hq, he.1⟩
    · cases he
  · rintro ⟨hs, stk, c, x, p, l, t, a, b, hq, he⟩
    exact ⟨_, hq, List.mem_filter.2 ⟨he, (isStarred_iff e).2 hs⟩⟩

/-- A call of a rule or macro: a statement, or the body of a comprehension that is a statement. -/
inductive RuleCall (stmts : List Expr) (e : Expr) : Prop
  | stmt : e ∈ stmts → IsCall e → RuleCall stmts e
  | body (c cu lb cl fm t) : .compr c cu lb e cl fm t ∈ stmts → IsCall e → RuleCall stmts e

theorem mem_wrapped (check : Expr → Option Expr) (y : Expr) (stmts : List Expr) :
    y ∈ wrapped check stmts ↔ ∃ e, RuleCall stmts e ∧ check e = some y := by
  unfold wrapped
  rw [List.mem_flatMap]
  constructor
  · rintro ⟨s, hs, h⟩
    unfold wrappedStmt at h
    split at h
    · exact ⟨_, .stmt hs ⟨_, _, _, _, _, _, _, rfl⟩, Option.mem_toList.1 h⟩
    · exact ⟨_, .body _ _ _ _ _ _ hs ⟨_, _, _, _, _, _, _, rfl⟩, Option.mem_toList.1 h⟩
    · cases h
  · rintro ⟨e, he, hc⟩
    cases he with
    | stmt hm hcall =>
      obtain ⟨_, _, _, _, _, _, _, rfl⟩ := hcall
      exact ⟨_, hm, Option.mem_toList.2 hc⟩
    | body c cu lb cl fm t hm hcall =>
      obtain ⟨_, _, _, _, _, _, _, rfl⟩ := hcall
      exact ⟨_, hm, Option.mem_toList.2 hc⟩

/-- the functions that may be called with positional arguments -/
def AllowedPositional (n : Bytes) : Prop := n ∈ [b!"exports_files", b!"licenses", b!"print", b!"register_toolchains", b!"vardef"]

/-- an argument that is not given by keyword -/
def NotKeyword (e : Expr) : Prop := e ≠ .nil ∧ ∀ c x p op lb y, e ≠ .assign c x p op lb y

/-- `y` is the first argument of the call `e` that is not given by keyword, and the function called does not allow that -/
inductive PositionalArg (y : Expr) : Expr → Prop
  | mk (c i p a b t fc fm) : ¬ AllowedPositional i.name → NotKeyword y → (∀ x ∈ a, ¬ NotKeyword x) → PositionalArg y (.call c (.ident i) p (a ++ y :: b) t fc fm)

theorem firstPositional_iff : ∀ (l : List Expr) (y : Expr), firstPositional l = some y ↔ ∃ a b, l = a ++ y :: b ∧ NotKeyword y ∧ ∀ x ∈ a, ¬ NotKeyword x
  | [], y => by
    constructor
    · intro h; cases h
    · rintro ⟨a, b, h, _⟩; cases a <;> cases h
  | e :: l, y => by
    by_cases he : NotKeyword e
    · have : firstPositional (e :: l) = some e := by
        cases e
        case assign => exact absurd rfl (he.2 _ _ _ _ _ _)
        case nil => exact absurd rfl he.1
        all_goals rfl
      rw [this]
      constructor
      · intro h; cases h; exact ⟨[], l, rfl, he, by simp⟩
      · rintro ⟨a, b, h, hy, ha⟩
        cases a with
        | nil => cases h; rfl
        | cons x a => cases h; exact absurd he (ha _ (by simp))
    · have : firstPositional (e :: l) = firstPositional l := by
        cases e
        case assign => rfl
        case nil => rfl
        all_goals exact absurd ⟨(by intro h; cases h), (by intros; intro h; cases h)⟩ he
      rw [this, firstPositional_iff l y]
      constructor
      · rintro ⟨a, b, rfl, hy, ha⟩
        exact ⟨e :: a, b, rfl, hy, fun x hx => (List.mem_cons.1 hx).elim (fun h => h ▸ he) (ha x)⟩
      · rintro ⟨a, b, h, hy, ha⟩
        cases a with
        | nil => cases h; exact absurd hy he
        | cons x a => cases h; exact ⟨a, b, rfl, hy, fun x hx => ha x (by simp [hx])⟩

theorem positionalOk_iff (n : Bytes) : positionalOk n = true ↔ AllowedPositional n := by
  simp [positionalOk, AllowedPositional, or_assoc]

theorem positionalFinding_iff (e y : Expr) : positionalFinding e = some y ↔ PositionalArg y e := by
  constructor
  · intro h
    unfold positionalFinding at h
    split at h
    · split at h
      · cases h
      · rename_i hn
        obtain ⟨a, b, rfl, hy, ha⟩ := (firstPositional_iff _ _).1 h
        exact .mk _ _ _ _ _ _ _ _ (fun hx => hn ((positionalOk_iff _).2 hx)) hy ha
    · cases h
  · rintro ⟨c, i, p, a, b, t, fc, fm, hn, hy, ha⟩
    rw [positionalFinding, if_neg (fun hx => hn ((positionalOk_iff _).1 hx))]
    exact (firstPositional_iff _ _).2 ⟨a, b, rfl, hy, ha⟩

/-- **C84**: exactly the first positional arguments of the rule calls are reported, of functions that are not meant to have some. -/
theorem C84_positional (stmts : List Expr) (y : Expr) : y ∈ positional stmts ↔ ∃ e, RuleCall stmts e ∧ PositionalArg y e := by
  unfold positional
  rw [mem_wrapped]
  exact ⟨fun ⟨e, h, h'⟩ => ⟨e, h, (positionalFinding_iff e y).1 h'⟩, fun ⟨e, h, h'⟩ => ⟨e, h, (positionalFinding_iff e y).2 h'⟩⟩

/-! ## Examples -/

/-- a rule `kind(name = n)` -/
private def rule (kind n : Bytes) : Expr :=
  .call {} (.ident { name := kind }) {} [.assign {} (.ident { name := b!"name" }) {} b!"=" false (.string { value := n })] {} false false

/-- In `a(name = "x"); [b(name = "x") for …]; c(name = "y")` the second rule is reported. A rule inside a call is not looked at. -/
theorem C84_duplicated_example :
    duplicated [rule b!"a" b!"x", .compr {} false {} (rule b!"b" b!"x") [] false {}, rule b!"c" b!"y",
      .call {} (.ident { name := b!"f" }) {} [rule b!"d" b!"y"] {} false false] = [rule b!"b" b!"x"] := rfl

/-- `glob(["*.c", "a.h", "b.h"])` -/
example :
    let s (v : Bytes) : Expr := .string { value := v }
    constantGlob (.call {} (.ident { name := b!"glob" }) {} [.list {} {} [s b!"*.c", s b!"a.h", s b!"b.h"] {} false] {} false false) = [s b!"a.h"] := rfl

/-- `glob(x, include = ["a.h"])` -/
example :
    let s (v : Bytes) : Expr := .string { value := v }
    constantGlob (.call {} (.ident { name := b!"glob" }) {} [.ident { name := b!"x" },
      .assign {} (.ident { name := b!"include" }) {} b!"=" false (.list {} {} [s b!"a.h"] {} false)] {} false false) = [s b!"a.h"] := rfl

/-- `f(x = 1, y)` is reported, `print(y)` is not -/
example :
    let id (n : Bytes) : Expr := .ident { name := n }
    positional [.call {} (id b!"f") {} [.assign {} (id b!"x") {} b!"=" false (id b!"z"), id b!"y"] {} false false,
      .call {} (id b!"print") {} [id b!"y"] {} false false] = [id b!"y"] := rfl

end Verif.Props.BuildWarn
