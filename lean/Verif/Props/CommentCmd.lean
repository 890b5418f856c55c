import Verif.Model.CommentCmd
import Verif.Proofs.SpanBody
/-
C100: the commands comment, remove_comment and print_comment of buildozer.
-/
namespace Verif.CommentCommand
open Verif Verif.Syntax Verif.Edit Verif.Cmd

/-! ## Specification -/

/-- a text as given on the command line, with `\n` for a line break, and the text that is meant -/
inductive Meant : Bytes → Bytes → Prop
  | nil : Meant [] []
  | line : Meant l l' → Meant (b!"\\n" ++ l) (10 :: l')
  | other : (b = 92 → ∀ r, l ≠ 110 :: r) → Meant l l' → Meant (b :: l) (b :: l')

/-- the lines of a text put together again -/
def unlines : List Bytes → Bytes
  | [] => []
  | [l] => l
  | l :: l' :: ls => l ++ 10 :: unlines (l' :: ls)

/-- the lines of the text given on the command line -/
def LinesOf (arg : Bytes) (lines : List Bytes) : Prop :=
  lines ≠ [] ∧ (∀ l ∈ lines, (10 : UInt8) ∉ l) ∧ Meant arg (unlines lines)

/-- the comments that say these lines -/
def Says (lines : List Bytes) (cs : List Comment) : Prop := cs.map (·.token) = lines.map (b!"# " ++ ·)

/-- The new comments `c'` of a node: the text goes before it, or (only if end-of-line comments are preferred and the text has one line)
after it on the same line; the other comments stay. -/
def Attached (eol : Bool) (lines : List Bytes) (c c' : Comments) : Prop :=
  ∃ cs, Says lines cs ∧
    (((eol = false ∨ lines.length ≠ 1) ∧ c' = { c with before := cs }) ∨ ((eol = true ∧ lines.length = 1) ∧ c' = { c with suffix := cs }))

/-- the first definition of the attribute `a` among the arguments, between what stands before and after it -/
structure FirstDef (a : Bytes) (args pre : List Expr) (c : Comments) (i : IdentN) (p : Pos) (o : Bytes) (lb : Bool) (r : Expr)
    (post : List Expr) : Prop where
  eq : args = pre ++ .assign c (.ident i) p o lb r :: post
  name : i.name = a
  first : ∀ c' i' p' o' lb' r', .assign c' (.ident i') p' o' lb' r' ∈ pre → i'.name ≠ a

/-- the attribute has no definition -/
def NoDef (a : Bytes) (args : List Expr) : Prop := ∀ c i p o lb r, .assign c (.ident i) p o lb r ∈ args → i.name ≠ a

/-- `e'` is `e` with one operand `t` of the sum replaced by `t'` (a sum of one operand is that operand) -/
inductive Operand (t t' : Expr) : Expr → Expr → Prop
  | self : Operand t t' t t'
  | left : Operand t t' x x' → Operand t t' (.binary c x p b!"+" lb y) (.binary c x' p b!"+" lb y)
  | right : Operand t t' y y' → Operand t t' (.binary c x p b!"+" lb y) (.binary c x p b!"+" lb y')

/-- every select among the operands has one argument, a dictionary -/
def PlainSelects (e : Expr) : Prop :=
  ∀ t e' c i p l en fc fm, Operand t t e e' → t = .call c (.ident i) p l en fc fm → i.name = b!"select" → ∃ c' p' kvs en' m, l = [.dict c' p' kvs en' m]

/-- `e'` is `e` with one string `s` in one of its lists replaced by `s'`: in a list that is an operand, or in a list that is a value in
a select that is an operand -/
inductive Element (s s' : StringN) (e e' : Expr) : Prop
  | list : Operand (.list c p (a ++ .string s :: b) en m) (.list c p (a ++ .string s' :: b) en m) e e' → Element s s' e e'
  | select : PlainSelects e → i.name = b!"select" →
      Operand (.call c (.ident i) p [.dict c1 p1 (ka ++ .keyValue c2 k p2 (.list c3 p3 (a ++ .string s :: b) e3 m3) :: kb) e1 m1] en fc fm)
        (.call c (.ident i) p [.dict c1 p1 (ka ++ .keyValue c2 k p2 (.list c3 p3 (a ++ .string s' :: b) e3 m3) :: kb) e1 m1] en fc fm) e e' →
      Element s s' e e'

/-- The value `e'` of the attribute afterwards, if the comments of a string meaning `v` are changed: nothing if there is none. -/
def Marked (v pkg : Bytes) (change : Comments → Comments → Prop) (e e' : Expr) : Prop :=
  (e' = e ∧ ∀ s e1, Element s s e e1 → Labels.equal s.value v pkg = false) ∨
  ∃ s cs, Labels.equal s.value v pkg = true ∧ change s.comments cs ∧ Element s { s with comments := cs } e e'

/-! ## Lemmas -/

theorem meant_replace : ∀ (n : Nat) (l : Bytes), l.length ≤ n → Meant l (Buildozer.replacePair 92 110 [10] l)
  | _, [], _ => .nil
  | n, [x], _ => .other (fun _ r h => by cases h) .nil
  | n + 1, x :: y :: l, h => by
    simp only [Buildozer.replacePair]
    split
    · rename_i hx
      obtain ⟨rfl, rfl⟩ := hx
      exact .line (meant_replace n l (by simp only [List.length_cons] at h; omega))
    · rename_i hx
      refine .other (fun hb r hr => ?_) (meant_replace n (y :: l) (by simp only [List.length_cons] at h ⊢; omega))
      cases hr
      exact hx ⟨hb, rfl⟩

theorem splitAll_ne (s : UInt8) : ∀ l, splitAll s l ≠ []
  | [] => by simp [splitAll]
  | c :: l => by
    simp only [splitAll]
    split
    · simp
    · split <;> simp

theorem unlines_splitAll : ∀ l, unlines (splitAll 10 l) = l
  | [] => rfl
  | c :: l => by
    have ih := unlines_splitAll l
    simp only [splitAll]
    split
    · rename_i h
      subst h
      cases hs : splitAll 10 l with
      | nil => exact absurd hs (splitAll_ne 10 l)
      | cons a b => rw [← ih, hs]; rfl
    · split
      · rename_i hs; exact absurd hs (splitAll_ne 10 l)
      · rename_i w ws hs
        rw [hs] at ih
        cases ws with
        | nil => simp only [unlines] at ih ⊢; rw [ih]
        | cons a b => simp only [unlines, List.cons_append] at ih ⊢; rw [ih]

theorem splitAll_line : ∀ l, ∀ w ∈ splitAll 10 l, (10 : UInt8) ∉ w
  | [], w, h => by simp only [splitAll, List.mem_singleton] at h; subst h; simp
  | c :: l, w, h => by
    have ih := splitAll_line l
    simp only [splitAll] at h
    split at h
    · rcases List.mem_cons.mp h with rfl | h
      · simp
      · exact ih w h
    · rename_i hc
      split at h
      · simp only [List.mem_singleton] at h; subst h; simp only [List.mem_singleton]; exact fun h => hc h.symm
      · rename_i a as hs
        rcases List.mem_cons.mp h with rfl | h
        · intro hm
          rcases List.mem_cons.mp hm with hm | hm
          · exact hc hm.symm
          · exact ih a (by rw [hs]; exact .head _) hm
        · exact ih w (by rw [hs]; exact .tail _ h)

theorem linesOf (arg : Bytes) : LinesOf arg (splitAll 10 (commentText arg)) :=
  ⟨splitAll_ne _ _, splitAll_line _, by rw [unlines_splitAll]; exact meant_replace _ _ (Nat.le_refl _)⟩

theorem splitAll_length : ∀ l : Bytes, (splitAll 10 l).length = 1 ↔ (10 : UInt8) ∉ l
  | [] => by simp [splitAll]
  | c :: l => by
    have ih := splitAll_length l
    have hne := splitAll_ne 10 l
    simp only [splitAll]
    split
    · rename_i h
      subst h
      cases hs : splitAll 10 l with
      | nil => exact absurd hs hne
      | cons a b => simp
    · rename_i h
      split
      · rename_i hs; exact absurd hs hne
      · rename_i w ws hs
        rw [hs] at ih
        simp only [List.length_cons, List.mem_cons, not_or] at ih ⊢
        exact ⟨fun hh => ⟨fun h' => h h'.symm, ih.mp hh⟩, fun hh => ih.mpr hh.2⟩

theorem fullLine_iff (eol : Bool) (arg : Bytes) :
    fullLine eol arg = true ↔ (eol = false ∨ (splitAll 10 (commentText arg)).length ≠ 1) := by
  unfold fullLine
  rw [Ne, splitAll_length]
  cases eol <;> simp

theorem says (arg : Bytes) : Says (splitAll 10 (commentText arg)) (commentLines arg) := by
  simp [Says, commentLines, List.map_map, Function.comp_def]

theorem attached (eol : Bool) (arg : Bytes) (c : Comments) :
    Attached eol (splitAll 10 (commentText arg)) c
      (if fullLine eol arg then { c with before := commentLines arg } else { c with suffix := commentLines arg }) := by
  refine ⟨commentLines arg, says arg, ?_⟩
  cases h : fullLine eol arg with
  | true => exact .inl ⟨(fullLine_iff eol arg).mp h, by simp⟩
  | false =>
    refine .inr ⟨?_, by simp⟩
    have h2 := mt (fullLine_iff eol arg).mpr (by simp [h])
    rw [not_or, Decidable.not_not] at h2
    exact ⟨(by revert h2; cases eol <;> simp), h2.2⟩

/-- the first definition is changed, nothing else -/
theorem onDefn_spec (a : Bytes) (f : Comments → IdentN → Pos → Bytes → Bool → Expr → Expr) :
    ∀ args, (NoDef a args ∧ onDefn a f args = args ∧ attrDefn a args = none) ∨
      ∃ pre c i p o lb r post, FirstDef a args pre c i p o lb r post ∧ onDefn a f args = pre ++ f c i p o lb r :: post ∧ attrDefn a args = some (c, r)
  | [] => .inl ⟨fun _ _ _ _ _ _ h => (by cases h), rfl, rfl⟩
  | x :: l => by
    have skip : (∀ c i p o lb r, x = .assign c (.ident i) p o lb r → i.name ≠ a) → onDefn a f (x :: l) = x :: onDefn a f l →
        attrDefn a (x :: l) = attrDefn a l →
        (NoDef a (x :: l) ∧ onDefn a f (x :: l) = x :: l ∧ attrDefn a (x :: l) = none) ∨
        ∃ pre c i p o lb r post, FirstDef a (x :: l) pre c i p o lb r post ∧ onDefn a f (x :: l) = pre ++ f c i p o lb r :: post ∧
          attrDefn a (x :: l) = some (c, r) := by
      intro hx ho ha
      rw [ho, ha]
      rcases onDefn_spec a f l with ⟨h, he, h2⟩ | ⟨pre, c, i, p, o, lb, r, post, h, he, h2⟩
      · refine .inl ⟨fun c i p o lb r hm => ?_, by rw [he], h2⟩
        rcases List.mem_cons.mp hm with hm | hm
        · exact hx _ _ _ _ _ _ hm.symm
        · exact h _ _ _ _ _ _ hm
      · refine .inr ⟨x :: pre, c, i, p, o, lb, r, post, ⟨by rw [h.eq]; rfl, h.name, fun c' i' p' o' lb' r' hm => ?_⟩, by rw [he]; rfl, h2⟩
        rcases List.mem_cons.mp hm with hm | hm
        · exact hx _ _ _ _ _ _ hm.symm
        · exact h.first _ _ _ _ _ _ hm
    by_cases hx : ∃ c i p o lb r, x = .assign c (.ident i) p o lb r
    · obtain ⟨c, i, p, o, lb, r, rfl⟩ := hx
      by_cases hn : i.name = a
      · exact .inr ⟨[], c, i, p, o, lb, r, l, ⟨rfl, hn, fun _ _ _ _ _ _ h => (by cases h)⟩, by simp [onDefn, hn], by simp [attrDefn, hn]⟩
      · refine skip (fun _ _ _ _ _ _ h => ?_) (by simp [onDefn, hn]) (by simp [attrDefn, hn])
        cases h; exact hn
    · refine skip (fun c i p o lb r h => absurd ⟨c, i, p, o, lb, r, h⟩ hx) ?_ ?_
      · rw [onDefn]
        exact fun c i p o lb r h => hx ⟨c, i, p, o, lb, r, h⟩
      · rw [attrDefn]
        exact fun c i p o lb r h => hx ⟨c, i, p, o, lb, r, h⟩

/-- the string found in a list -/
theorem onFound_spec (item pkg : Bytes) (f : Comments → Comments) :
    ∀ l, ((onFound item pkg f l) = (l, false) ∧ (∀ s, .string s ∈ l → Labels.equal s.value item pkg = false)) ∨
      ∃ a s b, l = a ++ .string s :: b ∧ Labels.equal s.value item pkg = true ∧ (∀ s, .string s ∈ a → Labels.equal s.value item pkg = false) ∧
        onFound item pkg f l = (a ++ .string { s with comments := f s.comments } :: b, true)
  | [] => .inl ⟨rfl, fun _ h => by cases h⟩
  | x :: l => by
    have skip : (∀ s, x = .string s → Labels.equal s.value item pkg = false) →
        onFound item pkg f (x :: l) = (x :: (onFound item pkg f l).1, (onFound item pkg f l).2) →
        ((onFound item pkg f (x :: l)) = (x :: l, false) ∧ (∀ s, .string s ∈ x :: l → Labels.equal s.value item pkg = false)) ∨
        ∃ a s b, x :: l = a ++ .string s :: b ∧ Labels.equal s.value item pkg = true ∧
          (∀ s, .string s ∈ a → Labels.equal s.value item pkg = false) ∧
          onFound item pkg f (x :: l) = (a ++ .string { s with comments := f s.comments } :: b, true) := by
      intro hx ho
      rw [ho]
      rcases onFound_spec item pkg f l with ⟨h, hn⟩ | ⟨a, s, b, h, he, hb, ho2⟩
      · refine .inl ⟨by rw [h], fun s hm => ?_⟩
        rcases List.mem_cons.mp hm with hm | hm
        · exact hx s hm.symm
        · exact hn s hm
      · refine .inr ⟨x :: a, s, b, by rw [h]; rfl, he, fun s hm => ?_, by rw [ho2]; rfl⟩
        rcases List.mem_cons.mp hm with hm | hm
        · exact hx s hm.symm
        · exact hb s hm
    by_cases hx : ∃ s, x = .string s
    · obtain ⟨s, rfl⟩ := hx
      cases he : Labels.equal s.value item pkg with
      | true => exact .inr ⟨[], s, l, rfl, he, fun _ h => (by cases h), by simp [onFound, he]⟩
      | false =>
        refine skip (fun s' h => ?_) (by simp [onFound, he])
        cases h; exact he
    · refine skip (fun s h => absurd ⟨s, h⟩ hx) ?_
      rw [onFound]
      exact fun s h => hx ⟨s, h⟩

/-- the lists of a sum -/
theorem onFoundInLists_spec (item pkg : Bytes) (f : Comments → Comments) (e : Expr) :
    ((onFoundInLists item pkg f e) = (e, false) ∧
      ∀ c p l en m e1, Operand (.list c p l en m) (.list c p l en m) e e1 → ∀ s, .string s ∈ l → Labels.equal s.value item pkg = false) ∨
    ∃ c p a s b en m, Labels.equal s.value item pkg = true ∧ (onFoundInLists item pkg f e).2 = true ∧
      Operand (.list c p (a ++ .string s :: b) en m) (.list c p (a ++ .string { s with comments := f s.comments } :: b) en m) e
        (onFoundInLists item pkg f e).1 := by
  fun_induction onFoundInLists item pkg f e with
  | case1 c p l en m =>
    rcases onFound_spec item pkg f l with ⟨h, hn⟩ | ⟨a, s, b, h, he, -, ho⟩
    · rw [h]
      refine .inl ⟨rfl, fun c p l en m e1 ho => ?_⟩
      cases ho
      exact hn
    · rw [ho]
      exact .inr ⟨c, p, a, s, b, en, m, he, rfl, by rw [h]; exact .self⟩
  | case2 c x p lb y r hr ih =>
    rcases ih with ⟨h, -⟩ | ⟨c', p', a, s, b, en, m, he, -, ho⟩
    · simp only [r, h] at hr; cases hr
    · exact .inr ⟨c', p', a, s, b, en, m, he, rfl, .left ho⟩
  | case3 c x p lb y r hr ih1 ih2 =>
    rcases ih1 with ⟨h1, hn1⟩ | ⟨c', p', a, s, b, en, m, he, h, ho⟩
    · rcases ih2 with ⟨h, hn⟩ | ⟨c', p', a, s, b, en, m, he, h, ho⟩
      · rw [h]
        refine .inl ⟨rfl, fun c p l en m e1 ho => ?_⟩
        cases ho with
        | left ho => exact hn1 _ _ _ _ _ _ ho
        | right ho => exact hn _ _ _ _ _ _ ho
      · exact .inr ⟨c', p', a, s, b, en, m, he, h, .right ho⟩
    · exact absurd h hr
  | case4 c x p o lb y ho =>
    refine .inl ⟨rfl, fun c p l en m e1 h => ?_⟩
    cases h <;> exact absurd rfl ho
  | case5 e h1 h2 =>
    refine .inl ⟨rfl, fun c p l en m e1 h => ?_⟩
    cases h with
    | self => exact absurd rfl (h1 _ _ _ _ _)
    | left => exact absurd rfl (h2 _ _ _ _ _ _)
    | right => exact absurd rfl (h2 _ _ _ _ _ _)

/-- the entries of a dictionary -/
theorem onFoundInEntries_spec (item pkg : Bytes) (f : Comments → Comments) (kvs : List Expr) :
    ((onFoundInEntries item pkg f kvs) = (kvs, false) ∧
      ∀ c k p c' p' l e m, .keyValue c k p (.list c' p' l e m) ∈ kvs → ∀ s, .string s ∈ l → Labels.equal s.value item pkg = false) ∨
    ∃ ka c k p c' p' a s b e m kb, kvs = ka ++ .keyValue c k p (.list c' p' (a ++ .string s :: b) e m) :: kb ∧
      Labels.equal s.value item pkg = true ∧
      onFoundInEntries item pkg f kvs =
        (ka ++ .keyValue c k p (.list c' p' (a ++ .string { s with comments := f s.comments } :: b) e m) :: kb, true) := by
  fun_induction onFoundInEntries item pkg f kvs with
  | case1 => exact .inl ⟨rfl, fun _ _ _ _ _ _ _ _ h => by cases h⟩
  | case2 c k p c' p' l e m kvs r hr =>
    rcases onFound_spec item pkg f l with ⟨h, -⟩ | ⟨a, s, b, h, he, -, ho⟩
    · simp only [r, h] at hr; cases hr
    · simp only [r, ho]
      exact .inr ⟨[], c, k, p, c', p', a, s, b, e, m, kvs, by rw [h]; rfl, he, rfl⟩
  | case3 c k p c' p' l e m kvs r hr ih =>
    rcases onFound_spec item pkg f l with ⟨-, hn⟩ | ⟨a, s, b, -, -, -, ho⟩
    · rcases ih with ⟨h, hn2⟩ | ⟨ka, c2, k2, p2, c3, p3, a, s, b, e3, m3, kb, h, he, ho⟩
      · rw [h]
        refine .inl ⟨rfl, fun _ _ _ _ _ _ _ _ hm => ?_⟩
        rcases List.mem_cons.mp hm with hm | hm
        · cases hm; exact hn
        · exact hn2 _ _ _ _ _ _ _ _ hm
      · exact .inr ⟨_ :: ka, c2, k2, p2, c3, p3, a, s, b, e3, m3, kb, by rw [h]; rfl, he, by rw [ho]; rfl⟩
    · simp only [r, ho, not_true_eq_false] at hr
  | case4 x kvs hx ih =>
    rcases ih with ⟨h, hn2⟩ | ⟨ka, c2, k2, p2, c3, p3, a, s, b, e3, m3, kb, h, he, ho⟩
    · rw [h]
      refine .inl ⟨rfl, fun _ _ _ _ _ _ _ _ hm => ?_⟩
      rcases List.mem_cons.mp hm with hm | hm
      · exact absurd hm.symm (hx _ _ _ _ _ _ _ _)
      · exact hn2 _ _ _ _ _ _ _ _ hm
    · exact .inr ⟨x :: ka, c2, k2, p2, c3, p3, a, s, b, e3, m3, kb, by rw [h]; rfl, he, by rw [ho]; rfl⟩

theorem operand_self : Operand t t' e e' → Operand t t e e
  | .self => .self
  | .left h => .left (operand_self h)
  | .right h => .right (operand_self h)

/-- the selects of a sum -/
theorem onFoundInSelects_spec (item pkg : Bytes) (f : Comments → Comments) (e : Expr) :
    ((onFoundInSelects item pkg f e) = (e, false) ∧
      ∀ c i p c1 p1 kvs e1 m1 rest en fc fm e', i.name = b!"select" →
        Operand (.call c (.ident i) p (.dict c1 p1 kvs e1 m1 :: rest) en fc fm) (.call c (.ident i) p (.dict c1 p1 kvs e1 m1 :: rest) en fc fm) e e' →
        ∀ c k p c' p' l e m, .keyValue c k p (.list c' p' l e m) ∈ kvs → ∀ s, .string s ∈ l → Labels.equal s.value item pkg = false) ∨
    ∃ c i p c1 p1 ka c2 k p2 c3 p3 a s b e3 m3 kb e1 m1 rest en fc fm, i.name = b!"select" ∧ Labels.equal s.value item pkg = true ∧
      (onFoundInSelects item pkg f e).2 = true ∧ Operand (.call c (.ident i) p (.dict c1 p1 (ka ++ .keyValue c2 k p2 (.list c3 p3 (a ++ .string s :: b) e3 m3) :: kb) e1 m1 :: rest) en fc fm)
        (.call c (.ident i) p (.dict c1 p1 (ka ++ .keyValue c2 k p2
          (.list c3 p3 (a ++ .string { s with comments := f s.comments } :: b) e3 m3) :: kb) e1 m1 :: rest) en fc fm) e
        (onFoundInSelects item pkg f e).1 := by
  fun_induction onFoundInSelects item pkg f e with
  | case1 c x p lb y r hr ih =>
    rcases ih with ⟨h, -⟩ | ⟨c, i, p, c1, p1, ka, c2, k, p2, c3, p3, a, s, b, e3, m3, kb, e1, m1, rest, en, fc, fm, hi, he, hb, ho⟩
    · simp only [r, h] at hr; cases hr
    · exact .inr ⟨c, i, p, c1, p1, ka, c2, k, p2, c3, p3, a, s, b, e3, m3, kb, e1, m1, rest, en, fc, fm, hi, he, rfl, .left ho⟩
  | case2 c x p lb y r hr ih1 ih2 =>
    rcases ih1 with ⟨h1, hn1⟩ | ⟨c, i, p, c1, p1, ka, c2, k, p2, c3, p3, a, s, b, e3, m3, kb, e1, m1, rest, en, fc, fm, hi, he, hb, ho⟩
    · rcases ih2 with ⟨h, hn⟩ | ⟨c, i, p, c1, p1, ka, c2, k, p2, c3, p3, a, s, b, e3, m3, kb, e1, m1, rest, en, fc, fm, hi, he, hb, ho⟩
      · rw [h]
        refine .inl ⟨rfl, fun c i p c1 p1 kvs e1 m1 rest en fc fm e' hi ho => ?_⟩
        cases ho with
        | left ho => exact hn1 _ _ _ _ _ _ _ _ _ _ _ _ _ hi ho
        | right ho => exact hn _ _ _ _ _ _ _ _ _ _ _ _ _ hi ho
      · exact .inr ⟨c, i, p, c1, p1, ka, c2, k, p2, c3, p3, a, s, b, e3, m3, kb, e1, m1, rest, en, fc, fm, hi, he, hb, .right ho⟩
    · exact absurd hb hr
  | case3 c x p o lb y ho =>
    refine .inl ⟨rfl, fun c i p c1 p1 kvs e1 m1 rest en fc fm e' hi h => ?_⟩
    cases h <;> exact absurd rfl ho
  | case4 c i p l en fc fm hi =>
    unfold onFoundInArgs
    split
    · rename_i c1 p1 kvs e1 m1 rest
      rcases onFoundInEntries_spec item pkg f kvs with ⟨h, hn⟩ | ⟨ka, c2, k, p2, c3, p3, a, s, b, e3, m3, kb, h, he, ho⟩
      · rw [h]
        refine .inl ⟨rfl, fun c i p c1 p1 kvs e1 m1 rest en fc fm e' hi h => ?_⟩
        cases h
        exact hn
      · rw [ho, h]
        exact .inr ⟨c, i, p, c1, p1, ka, c2, k, p2, c3, p3, a, s, b, e3, m3, kb, e1, m1, rest, en, fc, fm, hi, he, rfl, .self⟩
    · rename_i hx
      refine .inl ⟨rfl, fun c i p c1 p1 kvs e1 m1 rest en fc fm e' hi h => ?_⟩
      cases h
      exact absurd rfl (hx _ _ _ _ _ _)
  | case5 c i p l en fc fm hi =>
    refine .inl ⟨rfl, fun c i p c1 p1 kvs e1 m1 rest en fc fm e' hi' h => ?_⟩
    cases h
    exact absurd hi' hi
  | case6 e h1 h2 =>
    refine .inl ⟨rfl, fun c i p c1 p1 kvs e1 m1 rest en fc fm e' hi' h => ?_⟩
    cases h with
    | self => exact absurd rfl (h2 _ _ _ _ _ _ _)
    | left => exact absurd rfl (h1 _ _ _ _ _ _)
    | right => exact absurd rfl (h1 _ _ _ _ _ _)

theorem plainSelects (e : Expr) : (allSelects e).all plainSelect = true ↔ PlainSelects e := by
  fun_induction allSelects e with
  | case1 c x p lb y ih1 ih2 =>
    rw [List.all_append, Bool.and_eq_true, ih1, ih2]
    constructor
    · rintro ⟨hx, hy⟩ t e' c i p l en fc fm ho ht hi
      cases ho with
      | self => cases ht
      | left ho => exact hx _ _ _ _ _ _ _ _ _ ho ht hi
      | right ho => exact hy _ _ _ _ _ _ _ _ _ ho ht hi
    · exact fun h => ⟨fun t e' c i p l en fc fm ho ht hi => h _ _ _ _ _ _ _ _ _ (.left ho) ht hi,
        fun t e' c i p l en fc fm ho ht hi => h _ _ _ _ _ _ _ _ _ (.right ho) ht hi⟩
  | case2 c x p o lb y ho =>
    refine ⟨fun _ t e' c i p l en fc fm h ht hi => ?_, fun _ => rfl⟩
    cases h with
    | self => cases ht
    | left => exact absurd rfl ho
    | right => exact absurd rfl ho
  | case3 c i p l en fc fm hi =>
    simp only [List.all_cons, List.all_nil, Bool.and_true]
    constructor
    · intro h t e' c i p l en fc fm ho ht hi
      cases ho
      cases ht
      unfold plainSelect at h
      split at h
      · exact ⟨_, _, _, _, _, rfl⟩
      · cases h
    · intro h
      obtain ⟨c', p', kvs, en', m, hl⟩ := h _ _ _ _ _ _ _ _ _ .self rfl hi
      rw [hl]; rfl
  | case4 c i p l en fc fm hi =>
    refine ⟨fun _ t e' c i p l en fc fm h ht hi' => ?_, fun _ => rfl⟩
    cases h
    cases ht
    exact absurd hi' hi
  | case5 e h1 h2 =>
    refine ⟨fun _ t e' c i p l en fc fm h ht hi => ?_, fun _ => rfl⟩
    cases h with
    | self => exact absurd ht (h2 _ _ _ _ _ _ _)
    | left => exact absurd rfl (h1 _ _ _ _ _ _)
    | right => exact absurd rfl (h1 _ _ _ _ _ _)

theorem marked (v pkg : Bytes) (f : Comments → Comments) (e : Expr) :
    Marked v pkg (fun c c' => c' = f c) e (onListOrSelect v pkg f e) := by
  unfold onListOrSelect
  rcases onFoundInLists_spec v pkg f e with ⟨h, hn⟩ | ⟨c, p, a, s, b, en, m, he, h, ho⟩
  · rw [h]
    simp only [Bool.false_eq_true, if_false]
    split
    · rename_i hp
      have hp := (plainSelects e).mp hp
      rcases onFoundInSelects_spec v pkg f e with ⟨h2, hn2⟩ |
        ⟨c, i, p, c1, p1, ka, c2, k, p2, c3, p3, a, s, b, e3, m3, kb, e1, m1, rest, en, fc, fm, hi, he, hb, ho⟩
      · rw [h2]
        refine .inl ⟨rfl, fun s e1 h3 => ?_⟩
        cases h3 with
        | list ho => exact hn _ _ _ _ _ _ ho s (by simp)
        | select _ hi ho => exact hn2 _ _ _ _ _ _ _ _ _ _ _ _ _ hi ho _ _ _ _ _ _ _ _ (List.mem_append_right _ (.head _)) s (by simp)
      · obtain ⟨c', p', kvs, en', m, hl⟩ := hp _ _ _ _ _ _ _ _ _ (operand_self ho) rfl hi
        cases hl
        exact .inr ⟨s, f s.comments, he, rfl, .select hp hi ho⟩
    · rename_i hp
      refine .inl ⟨rfl, fun s e1 h3 => ?_⟩
      cases h3 with
      | list ho => exact hn _ _ _ _ _ _ ho s (by simp)
      | select hp' => exact absurd ((plainSelects e).mpr hp') hp
  · rw [h]
    exact .inr ⟨s, f s.comments, he, rfl, .list ho⟩

theorem Marked.mono {P Q : Comments → Comments → Prop} (hPQ : ∀ c c', P c c' → Q c c') : Marked v pkg P e e' → Marked v pkg Q e e'
  | .inl h => .inl h
  | .inr ⟨s, cs, h1, h2, h3⟩ => .inr ⟨s, cs, h1, hPQ _ _ h2, h3⟩

/-! ## comment and remove_comment -/

/-- `comment TEXT`: the lines of the text are put before the rule, in place of the comments before it; nothing else changes. -/
theorem C100_comment_rule (eol : Bool) (pkg t : Bytes) (st : St) :
    ∃ lines cs, LinesOf t lines ∧ Says lines cs ∧
      cmdComment eol pkg [t] st = some (done { st with comments := { st.comments with before := cs } }) :=
  ⟨_, _, linesOf t, says t, rfl⟩

/-- `comment ATTR TEXT`: the text is put before the name of the first definition of the attribute, or (for one line, if end-of-line
comments are preferred) behind its value; nothing else changes, and nothing at all if there is no such attribute. -/
theorem C100_comment_attribute (eol : Bool) (pkg a t : Bytes) (st : St) :
    ∃ lines cs args', LinesOf t lines ∧ Says lines cs ∧ cmdComment eol pkg [a, t] st = some (done { st with args := args' }) ∧
      ((NoDef a st.args ∧ args' = st.args) ∨
       ∃ pre c i p o lb r post, FirstDef a st.args pre c i p o lb r post ∧
        (((eol = false ∨ lines.length ≠ 1) ∧
          args' = pre ++ .assign c (.ident { i with comments := { i.comments with before := cs } }) p o lb r :: post) ∨
         ((eol = true ∧ lines.length = 1) ∧
          args' = pre ++ .assign c (.ident i) p o lb (r.setComments { r.comments with suffix := cs }) :: post))) := by
  refine ⟨_, _, _, linesOf t, says t, rfl, ?_⟩
  rcases onDefn_spec a _ st.args with ⟨h, he, -⟩ | ⟨pre, c, i, p, o, lb, r, post, h, he, -⟩
  · exact .inl ⟨h, he⟩
  · refine .inr ⟨pre, c, i, p, o, lb, r, post, h, ?_⟩
    rw [he]
    by_cases hf : fullLine eol t = true
    · exact .inl ⟨(fullLine_iff eol t).mp hf, by rw [if_pos hf]⟩
    · have h2 := mt (fullLine_iff eol t).mpr hf
      rw [not_or, Decidable.not_not] at h2
      exact .inr ⟨⟨(by revert h2; cases eol <;> simp), h2.2⟩, by rw [if_neg hf]⟩

/-- `comment ATTR VALUE TEXT`: the text is put before (or, for one line, if end-of-line comments are preferred, behind) one string
meaning the value in the lists of the attribute, in place of the comments there; nothing else changes, and nothing at all if there is
no such string. -/
theorem C100_comment_value (eol : Bool) (pkg a v t : Bytes) (st : St) :
    ∃ lines args', LinesOf t lines ∧ cmdComment eol pkg [a, v, t] st = some (done { st with args := args' }) ∧
      ((NoDef a st.args ∧ args' = st.args) ∨
       ∃ pre c i p o lb r r' post, FirstDef a st.args pre c i p o lb r post ∧ Marked v pkg (Attached eol lines) r r' ∧
        args' = pre ++ .assign c (.ident i) p o lb r' :: post) := by
  refine ⟨_, _, linesOf t, rfl, ?_⟩
  rcases onDefn_spec a _ st.args with ⟨h, he, -⟩ | ⟨pre, c, i, p, o, lb, r, post, h, he, -⟩
  · exact .inl ⟨h, he⟩
  · refine .inr ⟨pre, c, i, p, o, lb, r, _, post, h, ?_, he⟩
    exact (marked v pkg _ r).mono (fun cs cs' h => by subst h; exact attached eol t cs)

/-- `remove_comment`: the comments of the rule itself are removed, nothing else changes. -/
theorem C100_remove_rule (pkg : Bytes) (st : St) :
    cmdRemoveComment pkg [] st = some (done { st with comments := ⟨[], [], []⟩ }) := rfl

/-- `remove_comment ATTR`: the comments of the first definition of the attribute, of its name and of its value are removed. -/
theorem C100_remove_attribute (pkg a : Bytes) (st : St) :
    ∃ args', cmdRemoveComment pkg [a] st = some (done { st with args := args' }) ∧
      ((NoDef a st.args ∧ args' = st.args) ∨
       ∃ pre c i p o lb r post, FirstDef a st.args pre c i p o lb r post ∧
        args' = pre ++ .assign ⟨[], [], []⟩ (.ident { i with comments := ⟨[], [], []⟩ }) p o lb (r.setComments ⟨[], [], []⟩) :: post) := by
  refine ⟨_, rfl, ?_⟩
  rcases onDefn_spec a _ st.args with ⟨h, he, -⟩ | ⟨pre, c, i, p, o, lb, r, post, h, he, -⟩
  · exact .inl ⟨h, he⟩
  · exact .inr ⟨pre, c, i, p, o, lb, r, post, h, he⟩

/-- `remove_comment ATTR VALUE`: the comments of one string meaning the value are removed. -/
theorem C100_remove_value (pkg a v : Bytes) (st : St) :
    ∃ args', cmdRemoveComment pkg [a, v] st = some (done { st with args := args' }) ∧
      ((NoDef a st.args ∧ args' = st.args) ∨
       ∃ pre c i p o lb r r' post, FirstDef a st.args pre c i p o lb r post ∧ Marked v pkg (fun _ cs => cs = ⟨[], [], []⟩) r r' ∧
        args' = pre ++ .assign c (.ident i) p o lb r' :: post) := by
  refine ⟨_, rfl, ?_⟩
  rcases onDefn_spec a _ st.args with ⟨h, he, -⟩ | ⟨pre, c, i, p, o, lb, r, post, h, he, -⟩
  · exact .inl ⟨h, he⟩
  · exact .inr ⟨pre, c, i, p, o, lb, r, _, post, h, marked v pkg _ r, he⟩

/-! ## print_comment -/

/-- white space -/
def White (b : UInt8) : Prop := b = 32 ∨ (9 ≤ b ∧ b ≤ 13)

/-- `b` is `a` without the white space at both ends -/
def Trimmed (a b : Bytes) : Prop :=
  ∃ l r, a = l ++ b ++ r ∧ (∀ x ∈ l, White x) ∧ (∀ x ∈ r, White x) ∧ (∀ x, b.head? = some x → ¬White x) ∧ (∀ x, b.getLast? = some x → ¬White x)

/-- what a comment says: its text without the first `#`, trimmed -/
def Bare (token t : Bytes) : Prop :=
  (∃ r, token = 35 :: r ∧ Trimmed r t) ∨ ((∀ r, token ≠ 35 :: r) ∧ Trimmed token t)

/-- what each of the comments says -/
inductive Texts : List Comment → List Bytes → Prop
  | nil : Texts [] []
  | cons : Bare c.token t → Texts cs ts → Texts (c :: cs) (t :: ts)

/-- the texts in one line, separated by blanks -/
def OneLine (ts : List Bytes) : Bytes := (List.intercalate [32] ts).map fun b => if b = 10 then 32 else b

/-- what the comments say, in one line -/
def Shown (cs : List Comment) (line : Bytes) : Prop := ∃ ts, Texts cs ts ∧ line = OneLine ts

theorem white_iff (b : UInt8) : Buildozer.isSpaceByte b = true ↔ White b := by
  simp [Buildozer.isSpaceByte, White]

theorem dropWhile_split (l : Bytes) : ∃ a, l = a ++ l.dropWhile Buildozer.isSpaceByte ∧ (∀ x ∈ a, White x) := by
  refine ⟨l.takeWhile Buildozer.isSpaceByte, (List.takeWhile_append_dropWhile).symm, fun x hx => ?_⟩
  exact (white_iff x).mp (List.all_eq_true.mp List.all_takeWhile x hx)

theorem dropWhile_head (l : Bytes) (x : UInt8) (h : (l.dropWhile Buildozer.isSpaceByte).head? = some x) : ¬White x := by
  rw [← white_iff]
  have := List.head?_dropWhile_not Buildozer.isSpaceByte l
  rw [h] at this
  simpa using this

theorem trimmed (a : Bytes) : Trimmed a (Buildozer.trimSpace a) := by
  obtain ⟨l, h1, hl⟩ := dropWhile_split a
  obtain ⟨r, h2, hr⟩ := dropWhile_split (a.dropWhile Buildozer.isSpaceByte).reverse
  have h3 : a.dropWhile Buildozer.isSpaceByte = Buildozer.trimSpace a ++ r.reverse := by
    have := congrArg List.reverse h2
    rw [List.reverse_reverse, List.reverse_append] at this
    exact this
  refine ⟨l, r.reverse, by rw [List.append_assoc, ← h3]; exact h1, hl, fun x hx => hr x (List.mem_reverse.mp hx), fun x hx => ?_, fun x hx => ?_⟩
  · refine dropWhile_head a x ?_
    rw [h3]
    cases ht : Buildozer.trimSpace a with
    | nil => rw [ht] at hx; cases hx
    | cons y ys => rw [ht] at hx; exact hx
  · refine dropWhile_head (a.dropWhile Buildozer.isSpaceByte).reverse x ?_
    unfold Buildozer.trimSpace at hx
    rw [List.getLast?_reverse] at hx
    exact hx

theorem joinWith_eq : ∀ l, joinWith 32 l = List.intercalate [32] l
  | [] => rfl
  | [w] => by simp [joinWith, List.intercalate]
  | w :: w' :: ws => by
    rw [joinWith, joinWith_eq (w' :: ws)]
    · simp [List.intercalate, List.intersperse]
    · simp

/-- the text of a comment, as printed -/
def bare (c : Comment) : Bytes := Buildozer.trimSpace (match c.token with | 35 :: t => t | t => t)

theorem bare_spec (c : Comment) : Bare c.token (bare c) := by
  unfold bare Bare
  split
  · rename_i t h; exact .inl ⟨t, h, trimmed t⟩
  · rename_i h; exact .inr ⟨fun r hr => h r hr, trimmed _⟩

theorem texts : ∀ l, Texts l (l.map bare)
  | [] => .nil
  | c :: l => .cons (bare_spec c) (texts l)

theorem commentsText_eq (l : List Comment) : commentsText l = OneLine (l.map bare) := by
  unfold commentsText OneLine
  rw [← joinWith_eq]
  rfl

theorem shown (l : List Comment) : Shown l (commentsText l) := ⟨_, texts l, commentsText_eq l⟩

theorem Trimmed.unique {a b b' : Bytes} (h : Trimmed a b) (h' : Trimmed a b') : b = b' := by
  have key : ∀ {b}, Trimmed a b → b = Buildozer.trimSpace a := by
    rintro b ⟨l, r, rfl, hl, hr, hh, ht⟩
    unfold Buildozer.trimSpace
    rw [List.append_assoc, List.dropWhile_append_of_pos (fun x hx => (white_iff x).mpr (hl x hx))]
    have hnil : ∀ m : Bytes, (∀ x ∈ m, White x) → m.dropWhile Buildozer.isSpaceByte = [] :=
      fun m => by
        induction m with
        | nil => intro _; rfl
        | cons x m ih =>
          intro hm
          rw [List.dropWhile_cons_of_pos ((white_iff x).mpr (hm x (.head _)))]
          exact ih (fun y hy => hm y (.tail _ hy))
    cases b with
    | nil => rw [List.nil_append, hnil r hr]; rfl
    | cons y ys =>
      have hy : ¬ Buildozer.isSpaceByte y = true := fun h => hh y rfl ((white_iff y).mp h)
      rw [List.cons_append, List.dropWhile_cons_of_neg hy, ← List.cons_append, List.reverse_append,
        List.dropWhile_append_of_pos (fun x hx => (white_iff x).mpr (hr x (List.mem_reverse.mp hx)))]
      cases hz : (y :: ys).reverse with
      | nil => simp at hz
      | cons z zs =>
        have hlast : (y :: ys).getLast? = some z := by
          rw [← List.head?_reverse, hz]; rfl
        have hzn : ¬ Buildozer.isSpaceByte z = true := fun h => ht z hlast ((white_iff z).mp h)
        rw [List.dropWhile_cons_of_neg hzn, ← hz, List.reverse_reverse]
  rw [key h, key h']

theorem Texts.unique : Texts cs ts → Texts cs ts' → ts = ts'
  | .nil, .nil => rfl
  | .cons h hs, .cons h' hs' => by
    rw [Texts.unique hs hs']
    rcases h with ⟨r, h1, h2⟩ | ⟨h1, h2⟩ <;> rcases h' with ⟨r', h3, h4⟩ | ⟨h3, h4⟩
    · rw [h1] at h3; cases h3; rw [h2.unique h4]
    · exact absurd h1 (h3 r)
    · exact absurd h3 (h1 r')
    · rw [h2.unique h4]

/-- the comments say one thing only -/
theorem Shown.unique : Shown cs l → Shown cs l' → l = l'
  | ⟨_, h, e⟩, ⟨_, h', e'⟩ => by rw [e, e', h.unique h']

/-- `print_comment` shows the comments before the rule, then those behind and after it if they say something. -/
theorem C100_print_rule (pkg : Bytes) (st : St) :
    ∃ b s a, Shown st.comments.before b ∧ Shown st.comments.suffix s ∧ Shown st.comments.after a ∧
      cmdPrintComment pkg [] st = some (.fields (b :: ((if s = [] then [] else [s]) ++ (if a = [] then [] else [a])))) :=
  ⟨_, _, _, shown _, shown _, shown _, rfl⟩

/-- `print_comment ATTR` shows the comments of the first definition of the attribute. -/
theorem C100_print_attribute (pkg a : Bytes) (st : St) :
    (NoDef a st.args ∧ cmdPrintComment pkg [a] st = some .missing) ∨
    ∃ pre c i p o lb r post w, FirstDef a st.args pre c i p o lb r post ∧ Shown (c.before ++ c.suffix) w ∧
      cmdPrintComment pkg [a] st = some (.fields [w]) := by
  rcases onDefn_spec a (fun c i p o lb r => .assign c (.ident i) p o lb r) st.args with ⟨h, -, he⟩ | ⟨pre, c, i, p, o, lb, r, post, h, -, he⟩
  · exact .inl ⟨h, by simp [cmdPrintComment, he]⟩
  · exact .inr ⟨pre, c, i, p, o, lb, r, post, _, h, shown _, by simp [cmdPrintComment, he]⟩

/-! ### finding a string and changing it -/

/-- the test of `listsFind` -/
def test (v pkg : Bytes) : Expr → Option StringN
  | .string s => if Labels.equal s.value v pkg then some s else none
  | _ => none

/-- a changed string -/
def upd (f : Comments → Comments) (s : StringN) : StringN := { s with comments := f s.comments }

theorem listsFind_eq (lists : List (List Expr)) (v pkg : Bytes) : listsFind lists v pkg = lists.flatten.findSome? (test v pkg) := by
  unfold listsFind
  congr 1

theorem onFound_find (v pkg : Bytes) (f : Comments → Comments) (l : List Expr) :
    (onFound v pkg f l).1.findSome? (test v pkg) = (l.findSome? (test v pkg)).map (upd f) ∧
      (onFound v pkg f l).2 = (l.findSome? (test v pkg)).isSome := by
  fun_induction onFound v pkg f l with
  | case1 => exact ⟨rfl, rfl⟩
  | case2 s l h => simp [test, upd, h]
  | case3 s l h ih => simp [test, h, ih]
  | case4 x l h ih =>
    have : test v pkg x = none := by
      unfold test
      split
      · exact absurd rfl (h _)
      · rfl
    simp [this, ih]

theorem or_map (x y : Option StringN) (g : StringN → StringN) (h : x = none) : (x.or y).map g = y.map g := by rw [h]; rfl

theorem onFoundInLists_find (v pkg : Bytes) (f : Comments → Comments) (e : Expr) :
    (allLists (onFoundInLists v pkg f e).1).flatten.findSome? (test v pkg) = ((allLists e).flatten.findSome? (test v pkg)).map (upd f) ∧
      (onFoundInLists v pkg f e).2 = ((allLists e).flatten.findSome? (test v pkg)).isSome ∧
      allSelects (onFoundInLists v pkg f e).1 = allSelects e := by
  fun_induction onFoundInLists v pkg f e with
  | case1 c p l en m => simpa [allLists, allSelects] using onFound_find v pkg f l
  | case2 c x p lb y r hr ih =>
    have hs : ((allLists x).flatten.findSome? (test v pkg)).isSome = true := by rw [← ih.2.1]; exact hr
    obtain ⟨s, hs⟩ := Option.isSome_iff_exists.mp hs
    simp only [allLists, allSelects, if_true, List.flatten_append, List.findSome?_append, r, ih, hs]
    simp
  | case3 c x p lb y r hr ih1 ih2 =>
    have hs : (allLists x).flatten.findSome? (test v pkg) = none := by
      rw [← Option.not_isSome_iff_eq_none, ← ih1.2.1]; exact hr
    simp only [allLists, allSelects, if_true, List.flatten_append, List.findSome?_append, ih2, hs]
    simp
  | case4 c x p o lb y ho => simp [allLists, ho]
  | case5 e h1 h2 =>
    have : allLists e = [] := by
      unfold allLists
      split
      · exact absurd rfl (h1 _ _ _ _ _)
      · exact absurd rfl (h2 _ _ _ _ _ _)
      · rfl
    simp [this]

theorem onFoundInEntries_find (v pkg : Bytes) (f : Comments → Comments) (kvs : List Expr) :
    (((onFoundInEntries v pkg f kvs).1).flatMap entryList).flatten.findSome? (test v pkg) =
        ((kvs.flatMap entryList).flatten.findSome? (test v pkg)).map (upd f) ∧
      (onFoundInEntries v pkg f kvs).2 = ((kvs.flatMap entryList).flatten.findSome? (test v pkg)).isSome := by
  fun_induction onFoundInEntries v pkg f kvs with
  | case1 => exact ⟨rfl, rfl⟩
  | case2 c k p c' p' l e m kvs r hr =>
    have h := onFound_find v pkg f l
    have hs : (l.findSome? (test v pkg)).isSome = true := by rw [← h.2]; exact hr
    obtain ⟨s, hs⟩ := Option.isSome_iff_exists.mp hs
    simp only [List.flatMap_cons, entryList, List.flatten_append, List.findSome?_append, r, List.flatten_cons, List.flatten_nil,
      List.append_nil, h, hs]
    simp
  | case3 c k p c' p' l e m kvs r hr ih =>
    have h := onFound_find v pkg f l
    have hs : l.findSome? (test v pkg) = none := by
      rw [← Option.not_isSome_iff_eq_none, ← h.2]; exact hr
    simp only [List.flatMap_cons, entryList, List.flatten_append, List.findSome?_append, List.flatten_cons, List.flatten_nil,
      List.append_nil, ih, hs]
    simp
  | case4 x kvs hx ih =>
    have : entryList x = [] := by
      unfold entryList
      split
      · exact absurd rfl (hx _ _ _ _ _ _ _ _)
      · rfl
    simp only [List.flatMap_cons, this, List.nil_append, ih]
    simp

theorem onFoundInArgs_find (v pkg : Bytes) (f : Comments → Comments) (l : List Expr) :
    (dictLists (onFoundInArgs v pkg f l).1).flatten.findSome? (test v pkg) = ((dictLists l).flatten.findSome? (test v pkg)).map (upd f) ∧
      (onFoundInArgs v pkg f l).2 = ((dictLists l).flatten.findSome? (test v pkg)).isSome ∧
      plainSelect (onFoundInArgs v pkg f l).1 = plainSelect l := by
  unfold onFoundInArgs
  split
  · rename_i c p kvs e m rest
    refine ⟨(onFoundInEntries_find v pkg f kvs).1, (onFoundInEntries_find v pkg f kvs).2, ?_⟩
    cases rest <;> rfl
  · rename_i hx
    have : dictLists l = [] := by
      unfold dictLists
      split
      · exact absurd rfl (hx _ _ _ _ _ _)
      · rfl
    simp [this]

theorem onFoundInSelects_find (v pkg : Bytes) (f : Comments → Comments) (e : Expr) :
    ((allSelects (onFoundInSelects v pkg f e).1).flatMap dictLists).flatten.findSome? (test v pkg) =
        (((allSelects e).flatMap dictLists).flatten.findSome? (test v pkg)).map (upd f) ∧
      (onFoundInSelects v pkg f e).2 = (((allSelects e).flatMap dictLists).flatten.findSome? (test v pkg)).isSome ∧
      allLists (onFoundInSelects v pkg f e).1 = allLists e ∧
      (allSelects (onFoundInSelects v pkg f e).1).all plainSelect = (allSelects e).all plainSelect := by
  fun_induction onFoundInSelects v pkg f e with
  | case1 c x p lb y r hr ih =>
    have hs : (((allSelects x).flatMap dictLists).flatten.findSome? (test v pkg)).isSome = true := by rw [← ih.2.1]; exact hr
    obtain ⟨s, hs⟩ := Option.isSome_iff_exists.mp hs
    simp only [allLists, allSelects, if_true, List.flatMap_append, List.flatten_append, List.findSome?_append, List.all_append, r, ih, hs]
    simp
  | case2 c x p lb y r hr ih1 ih2 =>
    have hs : ((allSelects x).flatMap dictLists).flatten.findSome? (test v pkg) = none := by
      rw [← Option.not_isSome_iff_eq_none, ← ih1.2.1]; exact hr
    simp only [allLists, allSelects, if_true, List.flatMap_append, List.flatten_append, List.findSome?_append, List.all_append, ih2, hs]
    simp
  | case3 c x p o lb y ho => simp [allSelects, ho]
  | case4 c i p l en fc fm hi =>
    simp only [allSelects, hi, if_true, List.flatMap_cons, List.flatMap_nil, List.append_nil, List.all_cons, List.all_nil, Bool.and_true,
      onFoundInArgs_find, allLists, and_self]
  | case5 c i p l en fc fm hi => simp [allSelects, hi]
  | case6 e h1 h2 =>
    have : allSelects e = [] := by
      unfold allSelects
      split
      · exact absurd rfl (h1 _ _ _ _ _ _)
      · exact absurd rfl (h2 _ _ _ _ _ _ _)
      · rfl
    simp [this]

theorem find_changed (v pkg : Bytes) (f : Comments → Comments) (e : Expr) :
    listOrSelectFind (onListOrSelect v pkg f e) v pkg = (listOrSelectFind e v pkg).map (upd f) := by
  unfold onListOrSelect
  have h1 := onFoundInLists_find v pkg f e
  have h2 := onFoundInSelects_find v pkg f e
  split
  · rename_i h
    have hs : ((allLists e).flatten.findSome? (test v pkg)).isSome = true := by rw [← h1.2.1]; exact h
    obtain ⟨s, hs⟩ := Option.isSome_iff_exists.mp hs
    simp only [listOrSelectFind, listsFind_eq, List.flatten_append, List.findSome?_append, h1.1, hs]
    simp
  · rename_i h
    have hs : (allLists e).flatten.findSome? (test v pkg) = none := by
      rw [← Option.not_isSome_iff_eq_none, ← h1.2.1]; exact h
    split
    · rename_i hp
      simp only [listOrSelectFind, listsFind_eq, List.flatten_append, List.findSome?_append, h2.2.2.1, hs, allListsFromSelects, h2.2.2.2, hp,
        if_true, h2.1]
      simp
    · rename_i hp
      simp [listOrSelectFind, listsFind_eq, hs, allListsFromSelects, hp]

theorem mem_allLists (e : Expr) (l : List Expr) : l ∈ allLists e ↔ ∃ c p en m e1, Operand (.list c p l en m) (.list c p l en m) e e1 := by
  fun_induction allLists e with
  | case1 c p l' en m =>
    constructor
    · intro h
      rw [List.mem_singleton.mp h]
      exact ⟨_, _, _, _, _, .self⟩
    · rintro ⟨c, p, en, m, e1, h⟩
      cases h
      exact .head _
  | case2 c x p lb y ih1 ih2 =>
    rw [List.mem_append, ih1, ih2]
    constructor
    · rintro (⟨c, p, en, m, e1, h⟩ | ⟨c, p, en, m, e1, h⟩)
      · exact ⟨_, _, _, _, _, .left h⟩
      · exact ⟨_, _, _, _, _, .right h⟩
    · rintro ⟨c, p, en, m, e1, h⟩
      cases h with
      | left h => exact .inl ⟨_, _, _, _, _, h⟩
      | right h => exact .inr ⟨_, _, _, _, _, h⟩
  | case3 c x p o lb y ho =>
    refine ⟨fun h => by (cases h), ?_⟩
    rintro ⟨c, p, en, m, e1, h⟩
    cases h <;> exact absurd rfl ho
  | case4 e h1 h2 =>
    refine ⟨fun h => by (cases h), ?_⟩
    rintro ⟨c, p, en, m, e1, h⟩
    cases h with
    | self => exact absurd rfl (h1 _ _ _ _ _)
    | left => exact absurd rfl (h2 _ _ _ _ _ _)
    | right => exact absurd rfl (h2 _ _ _ _ _ _)

theorem mem_allSelects (e : Expr) (l : List Expr) :
    l ∈ allSelects e ↔ ∃ c i p en fc fm e1, i.name = b!"select" ∧ Operand (.call c (.ident i) p l en fc fm) (.call c (.ident i) p l en fc fm) e e1 := by
  fun_induction allSelects e with
  | case1 c x p lb y ih1 ih2 =>
    rw [List.mem_append, ih1, ih2]
    constructor
    · rintro (⟨c, i, p, en, fc, fm, e1, hi, h⟩ | ⟨c, i, p, en, fc, fm, e1, hi, h⟩)
      · exact ⟨_, _, _, _, _, _, _, hi, .left h⟩
      · exact ⟨_, _, _, _, _, _, _, hi, .right h⟩
    · rintro ⟨c, i, p, en, fc, fm, e1, hi, h⟩
      cases h with
      | left h => exact .inl ⟨_, _, _, _, _, _, _, hi, h⟩
      | right h => exact .inr ⟨_, _, _, _, _, _, _, hi, h⟩
  | case2 c x p o lb y ho =>
    refine ⟨fun h => by (cases h), ?_⟩
    rintro ⟨c, i, p, en, fc, fm, e1, hi, h⟩
    cases h <;> exact absurd rfl ho
  | case3 c i p l' en fc fm hi =>
    constructor
    · intro h
      rw [List.mem_singleton.mp h]
      exact ⟨_, _, _, _, _, _, _, hi, .self⟩
    · rintro ⟨c, i, p, en, fc, fm, e1, hi, h⟩
      cases h
      exact .head _
  | case4 c i p l' en fc fm hi =>
    refine ⟨fun h => by (cases h), ?_⟩
    rintro ⟨c, i, p, en, fc, fm, e1, hi', h⟩
    cases h
    exact absurd hi' hi
  | case5 e h1 h2 =>
    refine ⟨fun h => by (cases h), ?_⟩
    rintro ⟨c, i, p, en, fc, fm, e1, hi', h⟩
    cases h with
    | self => exact absurd rfl (h2 _ _ _ _ _ _ _)
    | left => exact absurd rfl (h1 _ _ _ _ _ _)
    | right => exact absurd rfl (h1 _ _ _ _ _ _)

/-- the strings that are looked at -/
theorem mem_lists (e : Expr) (s : StringN) :
    .string s ∈ (allLists e ++ allListsFromSelects e).flatten ↔ ∃ e1, Element s s e e1 := by
  rw [List.mem_flatten]
  constructor
  · rintro ⟨l, hl, hs⟩
    obtain ⟨a, b, rfl⟩ := List.append_of_mem hs
    rcases List.mem_append.mp hl with hl | hl
    · obtain ⟨c, p, en, m, e1, h⟩ := (mem_allLists e _).mp hl
      exact ⟨e1, .list h⟩
    · unfold allListsFromSelects at hl
      split at hl
      · rename_i hp
        have hp := (plainSelects e).mp hp
        obtain ⟨l2, hl2, hd⟩ := List.mem_flatMap.mp hl
        obtain ⟨c, i, p, en, fc, fm, e1, hi, ho⟩ := (mem_allSelects e _).mp hl2
        obtain ⟨c1, p1, kvs, en1, m1, rfl⟩ := hp _ _ _ _ _ _ _ _ _ ho rfl hi
        obtain ⟨kv, hkv, hm⟩ := List.mem_flatMap.mp hd
        unfold entryList at hm
        split at hm
        · rw [← List.mem_singleton.mp hm] at hkv
          obtain ⟨ka, kb, rfl⟩ := List.append_of_mem hkv
          exact ⟨e1, .select hp hi ho⟩
        · cases hm
      · cases hl
  · rintro ⟨e1, h⟩
    cases h with
    | list h => exact ⟨_, List.mem_append_left _ ((mem_allLists e _).mpr ⟨_, _, _, _, _, h⟩), by simp⟩
    | select hp hi h =>
      rename_i c i p c1 p1 ka kb en1 m1 en fc fm c2 k p2 c3 p3 a b e3 m3
      refine ⟨a ++ .string s :: b, List.mem_append_right _ ?h1, ?h2⟩
      case h1 =>
        unfold allListsFromSelects
        rw [if_pos ((plainSelects e).mpr hp)]
        refine List.mem_flatMap.mpr ⟨_, (mem_allSelects e _).mpr ⟨_, _, _, _, _, _, _, hi, h⟩, ?_⟩
        exact List.mem_flatMap.mpr ⟨_, List.mem_append_right _ (.head _), List.mem_singleton.mpr rfl⟩
      case h2 => exact List.mem_append_right _ (.head _)

theorem find_spec (e : Expr) (v pkg : Bytes) :
    (listOrSelectFind e v pkg = none ∧ ∀ s e1, Element s s e e1 → Labels.equal s.value v pkg = false) ∨
    ∃ s e1, listOrSelectFind e v pkg = some s ∧ Element s s e e1 ∧ Labels.equal s.value v pkg = true := by
  unfold listOrSelectFind
  rw [listsFind_eq]
  cases h : (allLists e ++ allListsFromSelects e).flatten.findSome? (test v pkg) with
  | none =>
    refine .inl ⟨rfl, fun s e1 he => ?_⟩
    have := List.findSome?_eq_none_iff.mp h _ ((mem_lists e s).mpr ⟨e1, he⟩)
    simpa [test] using this
  | some s =>
    obtain ⟨x, hx, ht⟩ := List.exists_of_findSome?_eq_some h
    unfold test at ht
    split at ht
    · split at ht
      · rename_i s' he
        cases ht
        obtain ⟨e1, h1⟩ := (mem_lists e s).mp hx
        exact .inr ⟨s, e1, rfl, h1, he⟩
      · cases ht
    · cases ht

/-- `print_comment ATTR VALUE` shows the comments of one string meaning the value. -/
theorem C100_print_value (pkg a v : Bytes) (st : St) :
    (NoDef a st.args ∧ cmdPrintComment pkg [a, v] st = some .missing) ∨
    ∃ pre c i p o lb r post, FirstDef a st.args pre c i p o lb r post ∧
      (((∀ s e1, Element s s r e1 → Labels.equal s.value v pkg = false) ∧ cmdPrintComment pkg [a, v] st = some .missingItem) ∨
       ∃ s e1 w, Element s s r e1 ∧ Labels.equal s.value v pkg = true ∧ Shown (s.comments.before ++ s.comments.suffix) w ∧
        cmdPrintComment pkg [a, v] st = some (.fields [w])) := by
  rcases onDefn_spec a (fun c i p o lb r => .assign c (.ident i) p o lb r) st.args with ⟨h, -, he⟩ | ⟨pre, c, i, p, o, lb, r, post, h, -, he⟩
  · exact .inl ⟨h, by simp [cmdPrintComment, he]⟩
  · refine .inr ⟨pre, c, i, p, o, lb, r, post, h, ?_⟩
    rcases find_spec r v pkg with ⟨hf, hn⟩ | ⟨s, e1, hf, h1, h2⟩
    · exact .inl ⟨hn, by simp [cmdPrintComment, he, hf]⟩
    · exact .inr ⟨s, e1, _, h1, h2, shown _, by simp [cmdPrintComment, he, hf]⟩

/-! ## What is written can be read -/

theorem attrDefn_first (h : FirstDef a args pre c i p o lb r post) : attrDefn a args = some (c, r) := by
  obtain ⟨rfl, hn, hf⟩ := h
  induction pre with
  | nil => simp [attrDefn, hn]
  | cons x pre ih =>
    have ih := ih (fun c' i' p' o' lb' r' hm => hf c' i' p' o' lb' r' (.tail _ hm))
    by_cases hx : ∃ c i p o lb r, x = .assign c (.ident i) p o lb r
    · obtain ⟨c', i', p', o', lb', r', rfl⟩ := hx
      have : i'.name ≠ a := hf _ _ _ _ _ _ (.head _)
      simpa [attrDefn, this] using ih
    · rw [List.cons_append, attrDefn, ih]
      exact fun c i p o lb r h => hx ⟨c, i, p, o, lb, r, h⟩

/-- what the definition of the attribute is after a command that changes it -/
theorem attrDefn_onDefn (a : Bytes) (f : Comments → IdentN → Pos → Bytes → Bool → Expr → Expr) (g : Expr → Expr) (k : Comments → Comments)
    (hf : ∀ c i p o lb r, ∃ i', i'.name = i.name ∧ f c i p o lb r = .assign (k c) (.ident i') p o lb (g r)) (args : List Expr) :
    attrDefn a (onDefn a f args) = (attrDefn a args).map fun x => (k x.1, g x.2) := by
  fun_induction onDefn a f args with
  | case1 => rfl
  | case2 c i p o lb r l h ih => simp [attrDefn, h, ih]
  | case3 c i p o lb r l h =>
    obtain ⟨i', hi, he⟩ := hf c i p o lb r
    have : i.name = a := Decidable.not_not.mp h
    simp [he, attrDefn, hi, this]
  | case4 x l hx ih =>
    rw [attrDefn, attrDefn, ih]
    · exact fun c i p o lb r h => hx _ _ _ _ _ _ h
    · exact fun c i p o lb r h => hx _ _ _ _ _ _ h

/-- the trimmed lines of a text, in one line -/
def InOneLine (arg w : Bytes) : Prop :=
  ∃ lines ts, LinesOf arg lines ∧ lines.length = ts.length ∧ (∀ p ∈ lines.zip ts, Trimmed p.1 p.2) ∧ w = OneLine ts

theorem inOneLine (t : Bytes) : InOneLine t (commentsText (commentLines t)) := by
  refine ⟨_, (splitAll 10 (commentText t)).map Buildozer.trimSpace, linesOf t, by simp, ?_, ?_⟩
  · intro p hp
    rw [List.zip_map_right, List.mem_map] at hp
    obtain ⟨q, hq, rfl⟩ := hp
    have : q.1 = q.2 := by
      obtain ⟨i, hi, h⟩ := List.getElem_of_mem hq
      simp only [List.getElem_zip] at h
      rw [← h]
    simp only [Prod.map, id, this]
    exact trimmed _
  · rw [commentsText_eq]
    simp only [commentLines, List.map_map]
    congr 1

/-- After `comment TEXT`, `print_comment` shows the text as the comment before the rule. -/
theorem C100_read_back_rule (eol : Bool) (pkg t : Bytes) (st : St) (res : Res) (h : cmdComment eol pkg [t] st = some res) :
    ∃ w rest, InOneLine t w ∧ cmdPrintComment pkg [] res.st = some (.fields (w :: rest)) ∧
      ∃ w', cmdPrintComment pkg [] st = some (.fields (w' :: rest)) := by
  cases h
  exact ⟨_, _, inOneLine t, rfl, _, rfl⟩

/-- After `comment ATTR VALUE TEXT` on a string without end-of-line comment, `print_comment ATTR VALUE` shows the text. -/
theorem C100_read_back_value (pkg a v t : Bytes) (st : St) (res : Res) (h : cmdComment false pkg [a, v, t] st = some res)
    (hd : FirstDef a st.args pre c i p o lb r post) (hex : ∃ s e1, Element s s r e1 ∧ Labels.equal s.value v pkg = true)
    (hs : ∀ s e1, Element s s r e1 → Labels.equal s.value v pkg = true → s.comments.suffix = []) :
    ∃ w, InOneLine t w ∧ cmdPrintComment pkg [a, v] res.st = some (.fields [w]) := by
  cases h
  have ha := attrDefn_first hd
  refine ⟨_, inOneLine t, ?_⟩
  simp only [cmdPrintComment, done]
  rw [attrDefn_onDefn a _ (onListOrSelect v pkg (fun cs => if fullLine false t then { cs with before := commentLines t }
    else { cs with suffix := commentLines t })) (fun c => c) (fun c i p o lb r => ⟨i, rfl, rfl⟩), ha]
  simp only [Option.map_some]
  rw [find_changed]
  rcases find_spec r v pkg with ⟨hf, hn⟩ | ⟨s, e1, hf, h1, h2⟩
  · obtain ⟨s, e1, h1, h2⟩ := hex
    rw [hn s e1 h1] at h2
    cases h2
  · rw [hf]
    simp [upd, fullLine, hs s e1 h1 h2]

/-- After `remove_comment` there are no comments to print. -/
theorem C100_removed (pkg : Bytes) (cargs : List Bytes) (st : St) (res : Res) (l : List Bytes)
    (h : cmdRemoveComment pkg cargs st = some res) (hp : cmdPrintComment pkg cargs res.st = some (.fields l)) : l = [[]] := by
  match cargs with
  | [] => cases h; cases hp; rfl
  | [a] =>
    cases h
    simp only [cmdPrintComment, done] at hp
    rw [attrDefn_onDefn a _ (fun r => r.setComments {}) (fun _ => {}) (fun c i p o lb r => ⟨{ i with comments := {} }, rfl, rfl⟩)] at hp
    cases ha : attrDefn a st.args with
    | none => rw [ha] at hp; cases hp
    | some x => rw [ha] at hp; cases hp; rfl
  | [a, v] =>
    cases h
    simp only [cmdPrintComment, done] at hp
    rw [attrDefn_onDefn a _ (onListOrSelect v pkg (fun _ => {})) (fun c => c) (fun c i p o lb r => ⟨i, rfl, rfl⟩)] at hp
    cases ha : attrDefn a st.args with
    | none => rw [ha] at hp; cases hp
    | some x =>
      rw [ha] at hp
      simp only [Option.map_some] at hp
      rw [find_changed] at hp
      cases hf : listOrSelectFind x.2 v pkg with
      | none => rw [hf] at hp; cases hp
      | some s => rw [hf] at hp; cases hp; rfl
  | _ :: _ :: _ :: _ => cases h

/-- Finding: `print_comment ATTR` does not see a comment that `comment ATTR TEXT` has just written: one looks at the comments of the
definition, the other writes those of the name or of the value. -/
theorem C100_attribute_unseen (eol : Bool) (pkg a t : Bytes) (st : St) (res : Res) (h : cmdComment eol pkg [a, t] st = some res) :
    cmdPrintComment pkg [a] res.st = cmdPrintComment pkg [a] st := by
  cases h
  simp only [cmdPrintComment, done]
  rw [attrDefn_onDefn a _ (fun r => if fullLine eol t then r else r.setComments { r.comments with suffix := commentLines t }) (fun c => c)
    (fun c i p o lb r => by
      by_cases hf : fullLine eol t = true
      · exact ⟨{ i with comments := { i.comments with before := commentLines t } }, rfl, by simp only [hf, if_true]⟩
      · exact ⟨i, rfl, by simp only [hf]; rfl⟩)]
  cases attrDefn a st.args <;> rfl

end Verif.CommentCommand
