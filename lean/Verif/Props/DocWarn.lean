import Verif.Model.DocWarn
import Verif.Props.Flow
import Verif.Props.Bzlenv
import Verif.Props.NameWarn
import Verif.Proofs.Strings
/-
**C86** Docstrings: which modules and functions are reported for lacking one, and which arguments and return values count as documented.
-/
namespace Verif.Props.DocWarn
open Verif Verif.Syntax Verif.DocWarn

/-! ## Specification -/

/-- a comment between statements -/
def IsComment (e : Expr) : Prop := e = .nil ∨ ∃ c p, e = .commentBlock c p

/-- `e` is the first statement that is not a comment -/
def First (l : List Expr) (e : Expr) : Prop := ∃ a b, l = a ++ e :: b ∧ (∀ x ∈ a, IsComment x) ∧ ¬ IsComment e

/-- the docstring of a block -/
def Doc (l : List Expr) (s : StringN) : Prop := First l (.string s)

/-- a byte of a name -/
def Word (c : UInt8) : Prop := (48 ≤ c.toNat ∧ c.toNat ≤ 57) ∨ (65 ≤ c.toNat ∧ c.toNat ≤ 90) ∨ (97 ≤ c.toNat ∧ c.toNat ≤ 122) ∨ c = c!"_"

/-- a byte of the description of a type -/
def TypeByte (c : UInt8) : Prop := Word c ∨ c ∈ b!" ,<>[]"

/-- only spaces -/
def Spaces (s : Bytes) : Prop := ∀ c ∈ s, c = c!" "

/-- The line describes the argument `n`: `n: …` or `n (type): …`, where `n` may begin with one or two stars (and may be empty). -/
def ArgLine (line n : Bytes) : Prop :=
  ∃ sp st w ty r, line = sp ++ (st ++ (w ++ (ty ++ (c!":" :: r)))) ∧ n = st ++ w ∧ Spaces sp ∧ (st = [] ∨ st = b!"*" ∨ st = b!"**") ∧ (∀ c ∈ w, Word c) ∧
    (ty = [] ∨ ∃ sp' t, ty = sp' ++ (c!"(" :: (t ++ b!")")) ∧ Spaces sp' ∧ t ≠ [] ∧ ∀ c ∈ t, TypeByte c)

/-- the line begins with exactly `k` spaces -/
def Indented (line : Bytes) (k : Nat) : Prop := ∃ r, line = List.replicate k c!" " ++ r ∧ ∀ x l, r = x :: l → x ≠ c!" "

/-- a line that ends a section of the docstring: not empty, and not indented more than the docstring -/
def Edge (indent : Nat) (line : Bytes) : Prop := line ≠ [] ∧ ∃ k ≤ indent, Indented line k

/-- a heading at the indentation of the docstring -/
def Heading (indent : Nat) (title line : Bytes) : Prop := line = List.replicate indent c!" " ++ title

/-- after these lines, one is in a section `Args:` -/
def InArgs (indent : Nat) (ls : List Bytes) : Prop :=
  ∃ a h b, ls = a ++ h :: b ∧ (Heading indent b!"Args:" h ∨ Heading indent b!"Arguments:" h) ∧ ∀ x ∈ b, ¬ Edge indent x

/-- the line, after the lines `a`, looks like the description of an argument -/
def Entry (indent : Nat) (a : List Bytes) (x n : Bytes) : Prop := InArgs indent a ∧ ¬ Edge indent x ∧ ArgLine x n

/-- Line `k`, with indentation `d`, documents the argument `n`: it looks like a description of `n` and is not indented more than any such line before. -/
def Documents (indent : Nat) (ls : List Bytes) (n : Bytes) (k d : Nat) : Prop :=
  ∃ a x b, ls = a ++ x :: b ∧ a.length = k ∧ Entry indent a x n ∧ Indented x d ∧ d ≤ 1000000 ∧
    ∀ a' y b' m e, a = a' ++ y :: b' → Entry indent a' y m → Indented y e → d ≤ e

/-- `t`: the line without blanks at its end -/
def Trimmed (line t : Bytes) : Prop :=
  ∃ i j, line = t ++ (List.replicate i c!" " ++ List.replicate j 13) ∧ (∀ u, t ≠ u ++ [c!" "]) ∧ (i = 0 → ∀ u, t ≠ u ++ [13])

/-- the lines of a text -/
def LinesOf (v : Bytes) (ls : List Bytes) : Prop := v = joinWith 10 ls ∧ ls ≠ [] ∧ ∀ l ∈ ls, (10 : UInt8) ∉ l

/-- the lines of a docstring, trimmed -/
def DocLines (d : StringN) (ts : List Bytes) : Prop := ∃ ls, LinesOf d.value ls ∧ ts.length = ls.length ∧ ∀ (i : Nat) (l t : Bytes), ls[i]? = some l → ts[i]? = some t → Trimmed l t

/-- a one-line summary: the first line that is not empty is the last one or followed by an empty one -/
def Summary (ts : List Bytes) : Prop := ∃ a h b, ts = a ++ h :: b ∧ (∀ x ∈ a, x = []) ∧ h ≠ [] ∧ (b = [] ∨ ∃ b', b = [] :: b')

/-- A docstring is required: a public function at the beginning of a line with at least five statements (also counting those in its `if` and `for` statements). -/
def Required (p : Pos) (name : Bytes) (body : List Expr) : Prop :=
  p.lineRune ≤ 1 ∧ (∀ r, name ≠ c!"_" :: r) ∧ ∃ qs : List Flow.Path, qs.Nodup ∧ 5 ≤ qs.length ∧ ∀ q ∈ qs, ∃ s, Flow.StmtIn 0 body q s

/-- the name of a parameter, as it is written, with its stars -/
inductive Written : Expr → Bytes → Prop
  | ident (i : IdentN) : i.name ≠ [] → Written (.ident i) i.name
  | typed (c) (i : IdentN) (t) : i.name ≠ [] → Written (.typedIdent c i t) i.name
  | default (c l p op b r n) : Written l n → Written (.assign c l p op b r) n
  | star (c p op x n) : n ≠ [] → Bzlenv.ParamNamed x n → Written (.unary c p op x) (op ++ n)

/-- the map with these assignments, as it is iterated: every name once, with its last value -/
def Iterates (l order : List (Bytes × Nat × Nat)) : Prop :=
  (order.map (·.1)).Nodup ∧ ∀ n v, (n, v) ∈ order ↔ ∃ a b, l = a ++ (n, v) :: b ∧ ∀ w, (n, w) ∉ b

/-! ## Proofs -/

theorem get_first (l : List Expr) (e : Expr) : (getDocstring l).1 = some e ↔ First l e := by
  induction l with
  | nil => exact ⟨fun h => (by cases h), fun ⟨a, b, h, _⟩ => (by cases a <;> cases h)⟩
  | cons x l ih =>
    have skip (hx : IsComment x) (hg : getDocstring (x :: l) = getDocstring l) : (getDocstring (x :: l)).1 = some e ↔ First (x :: l) e := by
      rw [hg, ih]
      constructor
      · rintro ⟨a, b, rfl, h1, h2⟩
        exact ⟨x :: a, b, rfl, by simpa using ⟨hx, h1⟩, h2⟩
      · rintro ⟨a, b, h, h1, h2⟩
        cases a with
        | nil => injection h with h; exact absurd (h ▸ hx) h2
        | cons y a =>
          injection h with hy h
          exact ⟨a, b, h, fun z hz => h1 z (by simp [hz]), h2⟩
    have stop (hx : ¬ IsComment x) (hg : (getDocstring (x :: l)).1 = some x) : (getDocstring (x :: l)).1 = some e ↔ First (x :: l) e := by
      rw [hg]
      constructor
      · intro h; injection h with h; subst h; exact ⟨[], l, rfl, by simp, hx⟩
      · rintro ⟨a, b, h, h1, h2⟩
        cases a with
        | nil => injection h with h; rw [h]
        | cons y a =>
          injection h with hy h
          exact absurd (h1 x (by simp [hy])) hx
    cases x with
    | nil => exact skip (.inl rfl) rfl
    | commentBlock c p => exact skip (.inr ⟨c, p, rfl⟩) rfl
    | _ => exact stop (by rintro (h | ⟨_, _, h⟩) <;> cases h) rfl

theorem get_isString (l : List Expr) : (getDocstring l).2 = true ↔ ∃ s, (getDocstring l).1 = some (.string s) := by
  induction l with
  | nil => exact ⟨fun h => (by cases h), fun ⟨_, h⟩ => (by cases h)⟩
  | cons x l ih =>
    cases x with
    | nil => exact ih
    | commentBlock c p => exact ih
    | string s => exact ⟨fun _ => ⟨s, rfl⟩, fun _ => rfl⟩
    | _ => exact ⟨fun h => (by cases h), fun ⟨_, h⟩ => (by cases h)⟩

theorem docOf_iff (l : List Expr) (s : StringN) : docOf l = some s ↔ Doc l s := by
  unfold Doc
  rw [← get_first]
  unfold docOf
  have h := get_isString l
  revert h
  generalize getDocstring l = g
  obtain ⟨o, b⟩ := g
  intro h
  simp only at h ⊢
  constructor
  · intro h'
    split at h'
    · rename_i s' heq
      injection heq with h1 h2
      injection h' with h'
      rw [h1, h']
    · cases h'
  · rintro rfl
    rw [h.2 ⟨s, rfl⟩]

theorem get_noString (l : List Expr) : (getDocstring l).2 = false ↔ ∀ s, ¬ Doc l s := by
  rw [← Bool.not_eq_true, get_isString]
  simp only [Doc, ← get_first, not_exists]

/-- **C86**: a module is reported iff its first statement that is not a comment exists and is no string; the report points at it. -/
theorem C86_module (bzl : Bool) (stmts : List Expr) (e : Expr) :
    moduleDocstring bzl stmts = some e ↔ bzl = true ∧ First stmts e ∧ ∀ s, e ≠ .string s := by
  have h1 := get_first stmts e
  have h2 := get_isString stmts
  unfold moduleDocstring
  revert h1 h2
  generalize getDocstring stmts = g
  obtain ⟨o, b⟩ := g
  intro h1 h2
  simp only at h1 h2
  cases bzl with
  | false => simp
  | true =>
    simp only [Bool.not_true, Bool.false_eq_true, if_false, true_and]
    rw [← h1]
    constructor
    · intro h
      split at h
      · rename_i e' heq
        injection heq with ha hb
        injection h with h
        subst h ha hb
        refine ⟨rfl, fun s hs => ?_⟩
        have := h2.2 ⟨s, by rw [hs]⟩
        cases this
      · cases h
    · rintro ⟨rfl, h⟩
      cases b with
      | true =>
        obtain ⟨s, hs⟩ := h2.1 rfl
        injection hs with hs
        exact absurd hs (h s)
      | false => rfl

/-! ### the number of statements -/

mutual
/-- the paths inside a statement -/
def paths1 : Expr → List Flow.Path
  | .ifS _ _ _ t _ f => [] :: ((pathsL 0 t).map (0 :: ·) ++ (pathsL 0 f).map (1 :: ·))
  | .forS _ _ _ _ b => [] :: (pathsL 0 b).map (0 :: ·)
  | _ => [[]]
/-- the paths of a list of statements -/
def pathsL (i : Nat) : List Expr → List Flow.Path
  | [] => []
  | s :: l => (paths1 s).map (i :: ·) ++ pathsL (i + 1) l
end

mutual
theorem paths1_length : ∀ s : Expr, (paths1 s).length = stmts1 s
  | .ifS _ _ _ t _ f => by
    simp only [paths1, stmts1, List.length_cons, List.length_append, List.length_map, pathsL_length t 0, pathsL_length f 0]; omega
  | .forS _ _ _ _ b => by simp only [paths1, stmts1, List.length_cons, List.length_map, pathsL_length b 0]; omega
  | .nil | .commentBlock .. | .typedIdent .. | .branch .. | .literal .. | .string .. | .call .. | .dot .. | .compr .. | .forClause .. | .ifClause .. | .keyValue ..
  | .dict .. | .set .. | .unary .. | .binary .. | .assign .. | .paren .. | .slice .. | .index .. | .lambda .. | .cond .. | .load .. | .defS .. | .returnS ..
  | .ident .. | .tuple .. | .list .. | .file .. => rfl
theorem pathsL_length : ∀ (l : List Expr) (i : Nat), (pathsL i l).length = stmtsCount l
  | [], _ => rfl
  | s :: l, i => by
    simp only [pathsL, stmtsCount, List.length_append, List.length_map, paths1_length s, pathsL_length l (i + 1)]
end

/-- inside a statement: itself or a statement of one of its lists -/
def In1 (s : Expr) (q : Flow.Path) : Prop := q = [] ∨ ∃ k l' q' s', Flow.Sub s k l' ∧ q = k :: q' ∧ Flow.StmtIn 0 l' q' s'

theorem stmtIn_cons {i : Nat} {s : Expr} {l : List Expr} {q : Flow.Path} :
    (∃ s', Flow.StmtIn i (s :: l) q s') ↔ (∃ q', q = i :: q' ∧ In1 s q') ∨ ∃ s', Flow.StmtIn (i + 1) l q s' := by
  constructor
  · rintro ⟨s', h⟩
    cases h with
    | here _ j _ _ hj =>
      cases j with
      | zero => exact .inl ⟨[], rfl, .inl rfl⟩
      | succ j =>
        refine .inr ⟨s', ?_⟩
        have := Flow.StmtIn.here (i + 1) j l s' (by simpa using hj)
        rw [show i + (j + 1) = i + 1 + j by omega]; exact this
    | inside _ j _ t k l' q' _ hj hs hi =>
      cases j with
      | zero =>
        have : s = t := by simpa using hj
        subst this
        exact .inl ⟨k :: q', rfl, .inr ⟨k, l', q', s', hs, rfl, hi⟩⟩
      | succ j =>
        refine .inr ⟨s', ?_⟩
        have := Flow.StmtIn.inside (i + 1) j l t k l' q' s' (by simpa using hj) hs hi
        rw [show i + (j + 1) = i + 1 + j by omega]; exact this
  · rintro (⟨q', rfl, rfl | ⟨k, l', q', s', hs, rfl, hi⟩⟩ | ⟨s', h⟩)
    · exact ⟨s, Flow.StmtIn.here i 0 (s :: l) s rfl⟩
    · exact ⟨s', Flow.StmtIn.inside i 0 (s :: l) s k l' q' s' rfl hs hi⟩
    · refine ⟨s', ?_⟩
      cases h with
      | here _ j _ _ hj =>
        rw [show i + 1 + j = i + (j + 1) by omega]
        exact Flow.StmtIn.here i (j + 1) (s :: l) s' (by simpa using hj)
      | inside _ j _ t k l' q' _ hj hs hi =>
        rw [show i + 1 + j = i + (j + 1) by omega]
        exact Flow.StmtIn.inside i (j + 1) (s :: l) t k l' q' s' (by simpa using hj) hs hi

mutual
theorem paths1_iff : ∀ (s : Expr) (q : Flow.Path), q ∈ paths1 s ↔ In1 s q
  | .ifS c p cd t e f, q => by
    rw [paths1, List.mem_cons, List.mem_append, List.mem_map, List.mem_map]
    unfold In1
    refine or_congr Iff.rfl ⟨?_, ?_⟩
    · rintro (⟨q', h, rfl⟩ | ⟨q', h, rfl⟩)
      · obtain ⟨s', h'⟩ := (pathsL_iff t 0 q').1 h
        exact ⟨0, t, q', s', .ifTrue .., rfl, h'⟩
      · obtain ⟨s', h'⟩ := (pathsL_iff f 0 q').1 h
        exact ⟨1, f, q', s', .ifFalse .., rfl, h'⟩
    · rintro ⟨k, l', q', s', hs, rfl, hi⟩
      cases hs with
      | ifTrue => exact .inl ⟨q', (pathsL_iff t 0 q').2 ⟨s', hi⟩, rfl⟩
      | ifFalse => exact .inr ⟨q', (pathsL_iff f 0 q').2 ⟨s', hi⟩, rfl⟩
  | .forS c p v x b, q => by
    rw [paths1, List.mem_cons, List.mem_map]
    unfold In1
    refine or_congr Iff.rfl ⟨?_, ?_⟩
    · rintro ⟨q', h, rfl⟩
      obtain ⟨s', h'⟩ := (pathsL_iff b 0 q').1 h
      exact ⟨0, b, q', s', .forS .., rfl, h'⟩
    · rintro ⟨k, l', q', s', hs, rfl, hi⟩
      cases hs with
      | forS => exact ⟨q', (pathsL_iff b 0 q').2 ⟨s', hi⟩, rfl⟩
  | .nil, q | .commentBlock .., q | .typedIdent .., q | .branch .., q | .literal .., q | .string .., q | .call .., q | .dot .., q | .compr .., q | .forClause .., q
  | .ifClause .., q | .keyValue .., q | .dict .., q | .set .., q | .unary .., q | .binary .., q | .assign .., q | .paren .., q | .slice .., q | .index .., q
  | .lambda .., q | .cond .., q | .load .., q | .defS .., q | .returnS .., q | .ident .., q | .tuple .., q | .list .., q | .file .., q => by
    simp only [paths1, In1, List.mem_singleton]
    refine ⟨.inl, fun h => h.elim id fun ⟨_, _, _, _, h, _⟩ => (by cases h)⟩
theorem pathsL_iff : ∀ (l : List Expr) (i : Nat) (q : Flow.Path), q ∈ pathsL i l ↔ ∃ s, Flow.StmtIn i l q s
  | [], i, q => by
    simp only [pathsL, List.not_mem_nil, false_iff]
    rintro ⟨s, h⟩
    cases h with
    | here _ j _ _ hj => simp at hj
    | inside _ j _ _ _ _ _ _ hj => simp at hj
  | s :: l, i, q => by
    rw [stmtIn_cons, pathsL, List.mem_append, List.mem_map, pathsL_iff l (i + 1) q]
    refine or_congr ⟨?_, ?_⟩ Iff.rfl
    · rintro ⟨q', h, rfl⟩; exact ⟨q', rfl, (paths1_iff s q').1 h⟩
    · rintro ⟨q', rfl, h⟩; exact ⟨q', (paths1_iff s q').2 h, rfl⟩
end

theorem pathsL_head : ∀ (l : List Expr) (i : Nat) (q : Flow.Path), q ∈ pathsL i l → ∃ j r, q = j :: r ∧ i ≤ j
  | [], _, _, h => by simp [pathsL] at h
  | s :: l, i, q, h => by
    rw [pathsL, List.mem_append, List.mem_map] at h
    rcases h with ⟨q', _, rfl⟩ | h
    · exact ⟨i, q', rfl, Nat.le_refl _⟩
    · obtain ⟨j, r, rfl, hj⟩ := pathsL_head l (i + 1) q h
      exact ⟨j, r, rfl, by omega⟩

theorem nodup_cons_map (k : Nat) (l : List Flow.Path) (h : l.Nodup) : (l.map (k :: ·)).Nodup :=
  List.Pairwise.map _ (fun a b hab he => hab (by injection he)) h

mutual
theorem paths1_nodup : ∀ s : Expr, (paths1 s).Nodup
  | .ifS c p cd t e f => by
    rw [paths1, List.nodup_cons, List.nodup_append]
    refine ⟨by simp, nodup_cons_map 0 _ (pathsL_nodup t 0), nodup_cons_map 1 _ (pathsL_nodup f 0), fun a ha b hb hab => ?_⟩
    obtain ⟨_, _, rfl⟩ := List.mem_map.1 ha
    obtain ⟨_, _, rfl⟩ := List.mem_map.1 hb
    injection hab with h; cases h
  | .forS c p v x b => by
    rw [paths1, List.nodup_cons]
    exact ⟨by simp, nodup_cons_map 0 _ (pathsL_nodup b 0)⟩
  | .nil | .commentBlock .. | .typedIdent .. | .branch .. | .literal .. | .string .. | .call .. | .dot .. | .compr .. | .forClause .. | .ifClause .. | .keyValue ..
  | .dict .. | .set .. | .unary .. | .binary .. | .assign .. | .paren .. | .slice .. | .index .. | .lambda .. | .cond .. | .load .. | .defS .. | .returnS ..
  | .ident .. | .tuple .. | .list .. | .file .. => by simp [paths1]
theorem pathsL_nodup : ∀ (l : List Expr) (i : Nat), (pathsL i l).Nodup
  | [], _ => by simp [pathsL]
  | s :: l, i => by
    rw [pathsL, List.nodup_append]
    refine ⟨nodup_cons_map i _ (paths1_nodup s), pathsL_nodup l (i + 1), fun a ha b hb hab => ?_⟩
    obtain ⟨_, _, rfl⟩ := List.mem_map.1 ha
    obtain ⟨j, r, rfl, hj⟩ := pathsL_head l (i + 1) b hb
    injection hab with h; omega
end

theorem nodup_length_le : ∀ {l m : List Flow.Path}, l.Nodup → (∀ x ∈ l, x ∈ m) → l.length ≤ m.length
  | [], _, _, _ => Nat.zero_le _
  | x :: l, m, hn, h => by
    rw [List.nodup_cons] at hn
    have hx := h x (by simp)
    have := nodup_length_le (m := m.erase x) hn.2 fun y hy => (List.mem_erase_of_ne (fun he : y = x => hn.1 (by subst he; exact hy))).2 (h y (by simp [hy]))
    rw [List.length_erase_of_mem hx] at this
    have : 0 < m.length := List.length_pos_of_mem hx
    simp only [List.length_cons]; omega

/-- **C86**: the size of a function is the number of its statements, also counting those in `if` and `for` statements, at any depth. -/
theorem C86_count (l : List Expr) (k : Nat) :
    k ≤ stmtsCount l ↔ ∃ qs : List Flow.Path, qs.Nodup ∧ k ≤ qs.length ∧ ∀ q ∈ qs, ∃ s, Flow.StmtIn 0 l q s := by
  rw [← pathsL_length l 0]
  constructor
  · intro h
    exact ⟨pathsL 0 l, pathsL_nodup l 0, h, fun q hq => (pathsL_iff l 0 q).1 hq⟩
  · rintro ⟨qs, h1, h2, h3⟩
    have := nodup_length_le h1 fun q hq => (pathsL_iff l 0 q).2 (h3 q hq)
    omega

theorem required_iff (p : Pos) (n : Bytes) (b : List Expr) : required p n b = true ↔ Required p n b := by
  unfold required Required
  rw [← C86_count]
  by_cases h : p.lineRune > 1
  · rw [if_pos h]
    exact ⟨fun h' => (by cases h'), fun h' => absurd h'.1 (by omega)⟩
  · rw [if_neg h, Bool.and_eq_true, decide_eq_true_eq, Bool.not_eq_true', ← Bool.not_eq_true]
    refine ⟨fun ⟨h1, h2⟩ => ⟨by omega, fun r hr => h1 ?_, h2⟩, fun ⟨_, h1, h2⟩ => ⟨fun hp => ?_, h2⟩⟩
    · exact (NameWarn.prefix_iff _ _).2 ⟨r, hr⟩
    · obtain ⟨r, hr⟩ := (NameWarn.prefix_iff _ _).1 hp
      exact h1 r hr

/-- **C86**: the functions reported as lacking a docstring are the statements of the file, in order, that are functions for which one is required and that have none. -/
theorem C86_function (stmts : List Expr) :
    ∃ test : Expr → Bool, functionDocstring stmts = stmts.filter test ∧
      ∀ e, test e = true ↔ ∃ c p n ps b cp fc fm t, e = .defS c p n ps b cp fc fm t ∧ Required p n b ∧ ∀ s, ¬ Doc b s := by
  refine ⟨lacksDocstring, rfl, fun e => ?_⟩
  constructor
  · intro h
    cases e with
    | defS c p n ps b cp fc fm t =>
      rw [lacksDocstring, Bool.and_eq_true, required_iff, Bool.not_eq_true', get_noString] at h
      exact ⟨c, p, n, ps, b, cp, fc, fm, t, rfl, h.1, h.2⟩
    | _ => cases h
  · rintro ⟨c, p, n, ps, b, cp, fc, fm, t, rfl, h1, h2⟩
    rw [lacksDocstring, Bool.and_eq_true, required_iff, Bool.not_eq_true', get_noString]
    exact ⟨h1, h2⟩

/-! ### lines -/

theorem dropWhile_append_spaces {s r : Bytes} (hs : Spaces s) : (s ++ r).dropWhile (· == c!" ") = r.dropWhile (· == c!" ") := by
  induction s with
  | nil => rfl
  | cons c s ih =>
    rw [List.cons_append, List.dropWhile_cons, if_pos (by simpa using hs c (by simp))]
    exact ih fun x hx => hs x (by simp [hx])

theorem takeWhile_all {p : UInt8 → Bool} {w r : Bytes} (hw : ∀ c ∈ w, p c = true) (hr : ∀ x l, r = x :: l → p x = false) :
    (w ++ r).takeWhile p = w ∧ (w ++ r).dropWhile p = r := by
  induction w with
  | nil =>
    cases r with
    | nil => simp
    | cons x l => simp [hr x l rfl]
  | cons c w ih =>
    have := ih fun x hx => hw x (by simp [hx])
    simp [hw c (by simp), this.1, this.2]

theorem takeWhile_sound {p : UInt8 → Bool} (s : Bytes) : s = s.takeWhile p ++ s.dropWhile p ∧ (∀ c ∈ s.takeWhile p, p c = true) ∧
    ∀ x l, s.dropWhile p = x :: l → p x = false := by
  induction s with
  | nil => simp
  | cons c s ih =>
    rw [List.takeWhile_cons, List.dropWhile_cons]
    by_cases h : p c = true
    · rw [if_pos h, if_pos h]
      refine ⟨by rw [List.cons_append, ← ih.1], ?_, ih.2.2⟩
      intro x hx
      rcases List.mem_cons.1 hx with rfl | hx
      · exact h
      · exact ih.2.1 x hx
    · rw [if_neg h, if_neg h]
      refine ⟨rfl, by simp, ?_⟩
      intro x l hx
      injection hx with hx
      rw [← hx]; simpa using h

theorem isWord_iff (c : UInt8) : isWord c = true ↔ Word c := by
  unfold isWord Word
  simp only [Bool.or_eq_true, Bool.and_eq_true, decide_eq_true_eq, UInt8.le_iff_toNat_le, beq_iff_eq, or_assoc]
  rfl

theorem isTypeByte_iff (c : UInt8) : isTypeByte c = true ↔ TypeByte c := by
  unfold isTypeByte TypeByte
  simp only [Bool.or_eq_true, beq_iff_eq, or_assoc, isWord_iff]
  refine or_congr Iff.rfl ?_
  simp only [List.mem_cons, List.not_mem_nil, or_false]

theorem typeColon_iff (s : Bytes) : typeColon s = true ↔ ∃ ty r, s = ty ++ (c!":" :: r) ∧
    (ty = [] ∨ ∃ sp' t, ty = sp' ++ (c!"(" :: (t ++ b!")")) ∧ Spaces sp' ∧ t ≠ [] ∧ ∀ c ∈ t, TypeByte c) := by
  constructor
  · intro h
    cases s with
    | nil => cases h
    | cons c s =>
      unfold typeColon at h
      simp only at h
      by_cases hc : c = c!":"
      · subst hc; exact ⟨[], s, rfl, .inl rfl⟩
      · rw [if_neg hc] at h
        obtain ⟨h1, h2, h3⟩ := takeWhile_sound (p := (· == c!" ")) (c :: s)
        revert h h1 h3
        generalize (c :: s).dropWhile (· == c!" ") = D
        intro h h1 h3
        cases D with
        | nil => cases h
        | cons a t =>
          simp only at h
          by_cases ha : a = c!"("
          · rw [if_pos ha, Bool.and_eq_true, Bool.not_eq_true', List.isEmpty_eq_false_iff] at h
            obtain ⟨r, hr⟩ := (NameWarn.prefix_iff _ _).1 h.2
            obtain ⟨g1, g2, _⟩ := takeWhile_sound (p := isTypeByte) t
            refine ⟨(c :: s).takeWhile (· == c!" ") ++ (c!"(" :: (t.takeWhile isTypeByte ++ b!")")), r, ?_, .inr ⟨_, _, rfl, ?_, h.1, ?_⟩⟩
            · rw [hr] at g1
              refine h1.trans ?_
              rw [ha]
              conv => lhs; rw [g1]
              simp
            · intro x hx; simpa using h2 x hx
            · intro x hx; exact (isTypeByte_iff x).1 (g2 x hx)
          · rw [if_neg ha] at h; cases h
  · rintro ⟨ty, r, rfl, rfl | ⟨sp, t, rfl, hsp, ht, hty⟩⟩
    · rfl
    · have hD : (sp ++ (c!"(" :: (t ++ b!")")) ++ (c!":" :: r)).dropWhile (· == c!" ") = c!"(" :: (t ++ (b!"):" ++ r)) := by
        rw [List.append_assoc, dropWhile_append_spaces hsp]
        simp
      obtain ⟨g1, g2⟩ := takeWhile_all (p := isTypeByte) (w := t) (r := b!"):" ++ r) (fun c hc => (isTypeByte_iff c).2 (hty c hc))
        (fun x l h => by injection h with h; subst h; decide)
      have hne : ∃ c l, sp ++ (c!"(" :: (t ++ b!")")) ++ (c!":" :: r) = c :: l ∧ c ≠ c!":" := by
        cases sp with
        | nil => exact ⟨_, _, rfl, by decide⟩
        | cons x sp => exact ⟨x, _, rfl, by rw [hsp x (by simp)]; decide⟩
      obtain ⟨c, l, hcl, hc⟩ := hne
      unfold typeColon
      rw [hcl] at hD ⊢
      simp only
      rw [if_neg hc, hD]
      simp only [if_true]
      rw [g1, g2, Bool.and_eq_true, Bool.not_eq_true', List.isEmpty_eq_false_iff]
      exact ⟨ht, (NameWarn.prefix_iff _ _).2 ⟨r, rfl⟩⟩

theorem stars_sound (l : Bytes) : l = (stars l).1 ++ (stars l).2 ∧ ((stars l).1 = [] ∨ (stars l).1 = b!"*" ∨ (stars l).1 = b!"**") := by
  cases l with
  | nil => exact ⟨rfl, .inl rfl⟩
  | cons a l =>
    unfold stars
    simp only
    by_cases ha : a = c!"*"
    · rw [if_pos ha]
      subst ha
      cases l with
      | nil => exact ⟨rfl, .inr (.inl rfl)⟩
      | cons b l =>
        simp only
        by_cases hb : b = c!"*"
        · rw [if_pos hb]; subst hb; exact ⟨rfl, .inr (.inr rfl)⟩
        · rw [if_neg hb]; exact ⟨rfl, .inr (.inl rfl)⟩
    · rw [if_neg ha]; exact ⟨rfl, .inl rfl⟩

theorem stars_complete {st r : Bytes} (h : st = [] ∨ st = b!"*" ∨ st = b!"**") (hr : ∀ x l, r = x :: l → x ≠ c!"*") : stars (st ++ r) = (st, r) := by
  rcases h with rfl | rfl | rfl
  · cases r with
    | nil => rfl
    | cons x l => simp only [List.nil_append, stars]; rw [if_neg (hr x l rfl)]
  · cases r with
    | nil => rfl
    | cons x l =>
      show stars (c!"*" :: x :: l) = _
      simp only [stars, if_true]; rw [if_neg (hr x l rfl)]
  · show stars (c!"*" :: c!"*" :: r) = _
    simp only [stars, if_true]

/-- what may come after the name -/
def AfterName (s : Bytes) : Prop := ∃ ty r, s = ty ++ (c!":" :: r) ∧
    (ty = [] ∨ ∃ sp' t, ty = sp' ++ (c!"(" :: (t ++ b!")")) ∧ Spaces sp' ∧ t ≠ [] ∧ ∀ c ∈ t, TypeByte c)

theorem afterName_head {s x l} (h : AfterName s) (hs : s = x :: l) : x = c!":" ∨ x = c!" " ∨ x = c!"(" := by
  obtain ⟨ty, r, rfl, rfl | ⟨sp, t, rfl, hsp, _⟩⟩ := h
  · injection hs with h; exact .inl h.symm
  · cases sp with
    | nil => injection hs with h; exact .inr (.inr h.symm)
    | cons y sp => injection hs with h; exact .inr (.inl (h ▸ hsp y (by simp)))

theorem argName_core {st w s : Bytes} (hst : st = [] ∨ st = b!"*" ∨ st = b!"**") (hw : ∀ c ∈ w, Word c) (hs : AfterName s)
    (hne : ∀ x l, st ++ (w ++ s) = x :: l → x ≠ c!" ") {sp : Bytes} (hsp : Spaces sp) : argName (sp ++ (st ++ (w ++ s))) = some (st ++ w) := by
  have hd : (sp ++ (st ++ (w ++ s))).dropWhile (· == c!" ") = st ++ (w ++ s) := by
    rw [dropWhile_append_spaces hsp]
    cases hX : st ++ (w ++ s) with
    | nil => rfl
    | cons x l => rw [List.dropWhile_cons, if_neg (by simpa using hne x l hX)]
  have hns : ∀ x l, w ++ s = x :: l → x ≠ c!"*" := by
    intro x l h
    cases w with
    | nil => rcases afterName_head hs h with rfl | rfl | rfl <;> decide
    | cons y w =>
      injection h with h
      subst h
      rintro rfl
      have := hw c!"*" (by simp)
      revert this; unfold Word; decide
  have hw' := takeWhile_all (p := isWord) (w := w) (r := s) (fun c hc => (isWord_iff c).2 (hw c hc))
    (fun x l h => by rcases afterName_head hs h with rfl | rfl | rfl <;> decide)
  unfold argName
  simp only [hd, stars_complete hst hns, hw'.1, hw'.2]
  rw [if_pos ((typeColon_iff s).2 hs)]

theorem argName_iff (line n : Bytes) : argName line = some n ↔ ArgLine line n := by
  constructor
  · intro h
    unfold argName at h
    obtain ⟨h1, h2, _⟩ := takeWhile_sound (p := (· == c!" ")) line
    obtain ⟨h3, h4⟩ := stars_sound (line.dropWhile (· == c!" "))
    revert h h3 h4
    generalize hst : stars (line.dropWhile (· == c!" ")) = g
    obtain ⟨st, r⟩ := g
    intro h h3 h4
    simp only [hst] at h h3 h4
    obtain ⟨h5, h6, _⟩ := takeWhile_sound (p := isWord) r
    by_cases ht : typeColon (r.dropWhile isWord) = true
    · rw [if_pos ht] at h
      injection h with h
      obtain ⟨ty, rest, h7, h8⟩ := (typeColon_iff _).1 ht
      refine ⟨_, st, r.takeWhile isWord, ty, rest, ?_, h.symm, fun x hx => by simpa using h2 x hx, h4, fun x hx => (isWord_iff x).1 (h6 x hx), h8⟩
      rw [← h7, ← h5, ← h3]; exact h1
    · rw [if_neg ht] at h; cases h
  · rintro ⟨sp, st, w, ty, r, rfl, rfl, hsp, hst, hw, hty⟩
    have hA : AfterName (ty ++ (c!":" :: r)) := ⟨ty, r, rfl, hty⟩
    by_cases hne : ∀ x l, st ++ (w ++ (ty ++ (c!":" :: r))) = x :: l → x ≠ c!" "
    · exact argName_core hst hw hA hne hsp
    · -- only blanks before the type
      have : ∃ l, st ++ (w ++ (ty ++ (c!":" :: r))) = c!" " :: l := by
        simp only [Classical.not_forall, Classical.not_not] at hne
        obtain ⟨x, l, h, rfl⟩ := hne
        exact ⟨l, h⟩
      obtain ⟨l, hl⟩ := this
      have hst0 : st = [] := by
        rcases hst with h | rfl | rfl
        · exact h
        · injection hl with h; cases h
        · injection hl with h; cases h
      subst hst0
      have hw0 : w = [] := by
        cases w with
        | nil => rfl
        | cons y w =>
          injection hl with h
          have := hw y (by simp)
          rw [h] at this
          exact absurd this (by unfold Word; decide)
      subst hw0
      rcases hty with rfl | ⟨sp', t, rfl, hsp', ht, hty⟩
      · injection hl with h; cases h
      · have := argName_core (st := []) (w := []) (s := (c!"(" :: (t ++ b!")")) ++ (c!":" :: r)) (.inl rfl) (by simp)
          ⟨_, r, rfl, .inr ⟨[], t, rfl, by simp [Spaces], ht, hty⟩⟩ (fun x l h => by injection h with h; subst h; decide)
          (sp := sp ++ sp') (fun c hc => (List.mem_append.1 hc).elim (hsp c) (hsp' c))
        rw [← this]
        simp

theorem indented_iff (line : Bytes) (k : Nat) : Indented line k ↔ leadingSpaces line = k := by
  unfold leadingSpaces
  constructor
  · rintro ⟨r, rfl, h⟩
    rw [(takeWhile_all (p := (· == c!" ")) (w := List.replicate k c!" ") (r := r) (fun c hc => by simp [List.eq_of_mem_replicate hc])
      (fun x l hx => by simpa using h x l hx)).1]
    simp
  · rintro rfl
    obtain ⟨h1, h2, h3⟩ := takeWhile_sound (p := (· == c!" ")) line
    refine ⟨line.dropWhile (· == c!" "), ?_, fun x l h => by simpa using h3 x l h⟩
    have : line.takeWhile (· == c!" ") = List.replicate (line.takeWhile (· == c!" ")).length c!" " :=
      List.eq_replicate_iff.2 ⟨rfl, fun c hc => by simpa using h2 c hc⟩
    rw [← this]; exact h1

theorem edge_iff (indent : Nat) (x : Bytes) : Edge indent x ↔ x ≠ [] ∧ leadingSpaces x ≤ indent := by
  unfold Edge
  refine and_congr Iff.rfl ⟨?_, ?_⟩
  · rintro ⟨k, hk, h⟩; rw [(indented_iff x k).1 h]; exact hk
  · intro h; exact ⟨_, h, (indented_iff x _).2 rfl⟩

theorem heading_edge {indent : Nat} {a : UInt8} {t x : Bytes} (ha : a ≠ c!" ") (h : Heading indent (a :: t) x) : Edge indent x := by
  refine ⟨?_, indent, Nat.le_refl _, a :: t, h, fun y l hy => by injection hy with hy; exact hy ▸ ha⟩
  rw [h]; simp

theorem snoc_split {α : Type} {ls a b : List α} {x y : α} (h : ls ++ [x] = a ++ y :: b) :
    (b = [] ∧ a = ls ∧ y = x) ∨ ∃ b', b = b' ++ [x] ∧ ls = a ++ y :: b' := by
  rcases List.eq_nil_or_concat b with rfl | ⟨b', z, rfl⟩
  · have := List.append_inj' h rfl
    exact .inl ⟨rfl, this.1.symm, by injection this.2 with h; exact h.symm⟩
  · rw [List.concat_eq_append] at h ⊢
    rw [← List.cons_append, ← List.append_assoc] at h
    have := List.append_inj' h rfl
    refine .inr ⟨b', by injection this.2 with h; rw [h], this.1⟩

/-- a heading of a section of arguments -/
def ArgsHeading (indent : Nat) (x : Bytes) : Prop := Heading indent b!"Args:" x ∨ Heading indent b!"Arguments:" x

theorem argsHeading_edge {indent : Nat} {x : Bytes} (h : ArgsHeading indent x) : Edge indent x :=
  h.elim (heading_edge (by decide)) (heading_edge (by decide))

theorem inArgs_snoc (indent : Nat) (ls : List Bytes) (x : Bytes) : InArgs indent (ls ++ [x]) ↔ ArgsHeading indent x ∨ (InArgs indent ls ∧ ¬ Edge indent x) := by
  constructor
  · rintro ⟨a, h, b, he, hh, hb⟩
    rcases snoc_split he with ⟨rfl, rfl, rfl⟩ | ⟨b', rfl, rfl⟩
    · exact .inl hh
    · exact .inr ⟨⟨a, h, b', rfl, hh, fun y hy => hb y (by simp [hy])⟩, hb x (by simp)⟩
  · rintro (h | ⟨⟨a, h, b, rfl, hh, hb⟩, hx⟩)
    · exact ⟨ls, x, [], rfl, h, by simp⟩
    · refine ⟨a, h, b ++ [x], by simp, hh, fun y hy => ?_⟩
      rcases List.mem_append.1 hy with hy | hy
      · exact hb y hy
      · rw [List.mem_singleton.1 hy]; exact hx

/-- the conditions of `Documents` for a line after `ls` -/
def NewDoc (indent : Nat) (ls : List Bytes) (x n : Bytes) (d : Nat) : Prop :=
  Entry indent ls x n ∧ Indented x d ∧ d ≤ 1000000 ∧ ∀ a' y b' m e, ls = a' ++ y :: b' → Entry indent a' y m → Indented y e → d ≤ e

theorem documents_snoc (indent : Nat) (ls : List Bytes) (x n : Bytes) (k d : Nat) :
    Documents indent (ls ++ [x]) n k d ↔ Documents indent ls n k d ∨ (k = ls.length ∧ NewDoc indent ls x n d) := by
  constructor
  · rintro ⟨a, y, b, he, rfl, h⟩
    rcases snoc_split he with ⟨rfl, rfl, rfl⟩ | ⟨b', rfl, rfl⟩
    · exact .inr ⟨rfl, h⟩
    · exact .inl ⟨a, y, b', rfl, rfl, h⟩
  · rintro (⟨a, y, b, rfl, rfl, h⟩ | ⟨rfl, h⟩)
    · exact ⟨a, y, b ++ [x], by simp, rfl, h⟩
    · exact ⟨ls, x, [], rfl, rfl, h⟩

/-- line `k` is the last line with the heading `Arguments:` -/
def LastArguments (indent : Nat) (ls : List Bytes) (k : Nat) : Prop :=
  ∃ a x b, ls = a ++ x :: b ∧ a.length = k ∧ Heading indent b!"Arguments:" x ∧ ∀ y ∈ b, ¬ Heading indent b!"Arguments:" y

/-- what the variables of the loop mean -/
structure Inv (indent : Nat) (ls : List Bytes) (st : St) : Prop where
  i : st.i = ls.length
  inArgs : st.inArgs = true ↔ InArgs indent ls
  ind : ∀ m, m ≤ st.argIndent ↔ m ≤ 1000000 ∧ ∀ a y b n e, ls = a ++ y :: b → Entry indent a y n → Indented y e → m ≤ e
  args : ∀ n k d, (n, k, d) ∈ st.args ↔ Documents indent ls n k d
  sorted : st.args.Pairwise fun a b => a.2.1 < b.2.1
  returns : st.returns = true ↔ ∃ x ∈ ls, Heading indent b!"Returns:" x
  deprecated : st.deprecated = true ↔ ∃ x ∈ ls, Heading indent b!"Deprecated:" x
  arguments : ∀ k, st.arguments = some k ↔ LastArguments indent ls k

theorem ind_keep {indent : Nat} {ls : List Bytes} {x : Bytes} (hx : ∀ n, ¬ Entry indent ls x n) {m : Nat} :
    (∀ a y b n e, ls ++ [x] = a ++ y :: b → Entry indent a y n → Indented y e → m ≤ e) ↔
      (∀ a y b n e, ls = a ++ y :: b → Entry indent a y n → Indented y e → m ≤ e) := by
  constructor
  · intro h a y b n e he
    exact h a y (b ++ [x]) n e (by rw [he]; simp)
  · intro h a y b n e he hE hi
    rcases snoc_split he with ⟨rfl, rfl, rfl⟩ | ⟨b', rfl, rfl⟩
    · exact absurd hE (hx n)
    · exact h a y b' n e rfl hE hi

theorem ind_snoc {indent : Nat} {ls : List Bytes} {x n : Bytes} (hx : Entry indent ls x n) {m : Nat} :
    (∀ a y b n e, ls ++ [x] = a ++ y :: b → Entry indent a y n → Indented y e → m ≤ e) ↔
      (∀ a y b n e, ls = a ++ y :: b → Entry indent a y n → Indented y e → m ≤ e) ∧ m ≤ leadingSpaces x := by
  constructor
  · intro h
    exact ⟨fun a y b n e he => h a y (b ++ [x]) n e (by rw [he]; simp), h ls x [] n _ rfl hx ((indented_iff _ _).2 rfl)⟩
  · rintro ⟨h, h'⟩ a y b n e he hE hi
    rcases snoc_split he with ⟨rfl, rfl, rfl⟩ | ⟨b', rfl, rfl⟩
    · rw [(indented_iff _ _).1 hi] at h'; exact h'
    · exact h a y b' n e rfl hE hi

theorem last_snoc_yes {indent : Nat} {ls : List Bytes} {x : Bytes} (hx : Heading indent b!"Arguments:" x) (k : Nat) :
    LastArguments indent (ls ++ [x]) k ↔ k = ls.length := by
  constructor
  · rintro ⟨a, y, b, he, rfl, h1, h2⟩
    rcases snoc_split he with ⟨rfl, rfl, rfl⟩ | ⟨b', rfl, rfl⟩
    · rfl
    · exact absurd hx (h2 x (by simp))
  · rintro rfl; exact ⟨ls, x, [], rfl, rfl, hx, by simp⟩

theorem last_snoc_no {indent : Nat} {ls : List Bytes} {x : Bytes} (hx : ¬ Heading indent b!"Arguments:" x) (k : Nat) :
    LastArguments indent (ls ++ [x]) k ↔ LastArguments indent ls k := by
  constructor
  · rintro ⟨a, y, b, he, rfl, h1, h2⟩
    rcases snoc_split he with ⟨rfl, rfl, rfl⟩ | ⟨b', rfl, rfl⟩
    · exact absurd h1 hx
    · exact ⟨a, y, b', rfl, rfl, h1, fun z hz => h2 z (by simp [hz])⟩
  · rintro ⟨a, y, b, rfl, rfl, h1, h2⟩
    refine ⟨a, y, b ++ [x], by simp, rfl, h1, fun z hz => ?_⟩
    rcases List.mem_append.1 hz with hz | hz
    · exact h2 z hz
    · rw [List.mem_singleton.1 hz]; exact hx

theorem exists_snoc {P : Bytes → Prop} {ls : List Bytes} {x : Bytes} : (∃ y ∈ ls ++ [x], P y) ↔ (∃ y ∈ ls, P y) ∨ P x := by
  constructor
  · rintro ⟨y, hy, h⟩
    rcases List.mem_append.1 hy with hy | hy
    · exact .inl ⟨y, hy, h⟩
    · rw [List.mem_singleton.1 hy] at h; exact .inr h
  · rintro (⟨y, hy, h⟩ | h)
    · exact ⟨y, by simp [hy], h⟩
    · exact ⟨x, by simp, h⟩

theorem heading_ne {indent : Nat} {s t x : Bytes} (h : Heading indent s x) (hst : s ≠ t) : ¬ Heading indent t x := by
  intro h'
  exact hst (List.append_cancel_left (h.symm.trans h'))

theorem inv_next {indent : Nat} {ls : List Bytes} {st : St} (h : Inv indent ls st) (x : Bytes) : Inv indent (ls ++ [x]) (next indent st x) := by
  have keepArgs (hx : ∀ n, ¬ Entry indent ls x n) (n k d) : (n, k, d) ∈ st.args ↔ Documents indent (ls ++ [x]) n k d := by
    rw [documents_snoc, h.args]
    exact ⟨.inl, fun h' => h'.elim id fun h' => absurd h'.2.1 (hx n)⟩
  have keepInd (hx : ∀ n, ¬ Entry indent ls x n) (m) : m ≤ st.argIndent ↔ m ≤ 1000000 ∧ ∀ a y b n e, ls ++ [x] = a ++ y :: b → Entry indent a y n → Indented y e → m ≤ e := by
    rw [ind_keep hx, h.ind]
  have edgeNo (he : Edge indent x) (n) : ¬ Entry indent ls x n := fun hE => hE.2.1 he
  have hlen : st.i + 1 = (ls ++ [x]).length := by rw [h.i]; simp
  unfold next stepLine
  simp only
  by_cases h1 : Heading indent b!"Arguments:" x
  · rw [if_pos (show x = _ from h1)]
    have he := heading_edge (by decide) h1
    refine ⟨hlen, ?_, keepInd (edgeNo he), keepArgs (edgeNo he), h.sorted, ?_, ?_, ?_⟩
    · rw [inArgs_snoc]; exact ⟨fun _ => .inl (.inr h1), fun _ => rfl⟩
    · rw [exists_snoc]; exact h.returns.trans ⟨.inl, fun h' => h'.elim id fun h' => absurd h' (heading_ne h1 (by decide))⟩
    · rw [exists_snoc]; exact h.deprecated.trans ⟨.inl, fun h' => h'.elim id fun h' => absurd h' (heading_ne h1 (by decide))⟩
    · intro k; rw [last_snoc_yes h1, h.i]
      exact ⟨fun h' => by injection h' with h'; exact h'.symm, fun h' => by rw [h']⟩
  rw [if_neg (show ¬ x = _ from h1)]
  have hl := fun k => (h.arguments k).trans (last_snoc_no h1 k).symm
  by_cases h2 : Heading indent b!"Args:" x
  · rw [if_pos (show x = _ from h2)]
    have he := heading_edge (by decide) h2
    refine ⟨hlen, ?_, keepInd (edgeNo he), keepArgs (edgeNo he), h.sorted, ?_, ?_, hl⟩
    · rw [inArgs_snoc]; exact ⟨fun _ => .inl (.inl h2), fun _ => rfl⟩
    · rw [exists_snoc]; exact h.returns.trans ⟨.inl, fun h' => h'.elim id fun h' => absurd h' (heading_ne h2 (by decide))⟩
    · rw [exists_snoc]; exact h.deprecated.trans ⟨.inl, fun h' => h'.elim id fun h' => absurd h' (heading_ne h2 (by decide))⟩
  rw [if_neg (show ¬ x = _ from h2)]
  have noArgs : ¬ ArgsHeading indent x := fun h' => h'.elim h2 h1
  by_cases h3 : Heading indent b!"Returns:" x
  · rw [if_pos (show x = _ from h3)]
    have he := heading_edge (by decide) h3
    refine ⟨hlen, ?_, keepInd (edgeNo he), keepArgs (edgeNo he), h.sorted, ?_, ?_, hl⟩
    · rw [inArgs_snoc]; exact ⟨fun h' => (by cases h'), fun h' => h'.elim (fun h' => absurd h' noArgs) fun h' => absurd he h'.2⟩
    · rw [exists_snoc]; exact ⟨fun _ => .inr h3, fun _ => rfl⟩
    · rw [exists_snoc]; exact h.deprecated.trans ⟨.inl, fun h' => h'.elim id fun h' => absurd h' (heading_ne h3 (by decide))⟩
  rw [if_neg (show ¬ x = _ from h3)]
  have hr : st.returns = true ↔ ∃ y ∈ ls ++ [x], Heading indent b!"Returns:" y := by
    rw [exists_snoc]; exact h.returns.trans ⟨.inl, fun h' => h'.elim id fun h' => absurd h' h3⟩
  by_cases h4 : Heading indent b!"Deprecated:" x
  · rw [if_pos (show x = _ from h4)]
    have he := heading_edge (by decide) h4
    refine ⟨hlen, ?_, keepInd (edgeNo he), keepArgs (edgeNo he), h.sorted, hr, ?_, hl⟩
    · rw [inArgs_snoc]; exact ⟨fun h' => (by cases h'), fun h' => h'.elim (fun h' => absurd h' noArgs) fun h' => absurd he h'.2⟩
    · rw [exists_snoc]; exact ⟨fun _ => .inr h4, fun _ => rfl⟩
  rw [if_neg (show ¬ x = _ from h4)]
  have hd : st.deprecated = true ↔ ∃ y ∈ ls ++ [x], Heading indent b!"Deprecated:" y := by
    rw [exists_snoc]; exact h.deprecated.trans ⟨.inl, fun h' => h'.elim id fun h' => absurd h' h4⟩
  unfold stepArgs
  by_cases h5 : st.inArgs = true
  · rw [if_pos h5]
    have hin := h.inArgs.1 h5
    by_cases h6 : x ≠ [] ∧ leadingSpaces x ≤ indent
    · rw [if_pos h6]
      have he := (edge_iff indent x).2 h6
      refine ⟨hlen, ?_, keepInd (edgeNo he), keepArgs (edgeNo he), h.sorted, hr, hd, hl⟩
      rw [inArgs_snoc]; exact ⟨fun h' => (by cases h'), fun h' => h'.elim (fun h' => absurd h' noArgs) fun h' => absurd he h'.2⟩
    · rw [if_neg h6]
      have he : ¬ Edge indent x := fun h' => h6 ((edge_iff indent x).1 h')
      have hin' : st.inArgs = true ↔ InArgs indent (ls ++ [x]) := by
        rw [inArgs_snoc]; exact ⟨fun _ => .inr ⟨hin, he⟩, fun _ => h5⟩
      by_cases h7 : leadingSpaces x > st.argIndent
      · rw [if_pos h7]
        refine ⟨hlen, hin', ?_, ?_, h.sorted, hr, hd, hl⟩
        · intro m
          by_cases hE : ∃ n, Entry indent ls x n
          · obtain ⟨n, hE⟩ := hE
            show m ≤ st.argIndent ↔ _
            rw [ind_snoc hE, ← and_assoc, ← h.ind]
            exact ⟨fun h' => ⟨h', by omega⟩, fun h' => h'.1⟩
          · exact keepInd (fun n hn => hE ⟨n, hn⟩) m
        · intro n k d
          show (n, k, d) ∈ st.args ↔ _
          rw [documents_snoc, h.args]
          refine ⟨.inl, fun h' => h'.elim id ?_⟩
          rintro ⟨_, hE, hi, hd', hmin⟩
          have := (h.ind d).2 ⟨hd', fun a y b m e => hmin a y b m e⟩
          rw [(indented_iff _ _).1 hi] at h7
          omega
      · rw [if_neg h7]
        cases ha : argName x with
        | none =>
          have hno : ∀ n, ¬ Entry indent ls x n := fun n hn => by rw [(argName_iff x n).2 hn.2.2] at ha; cases ha
          exact ⟨hlen, hin', keepInd hno, keepArgs hno, h.sorted, hr, hd, hl⟩
        | some n =>
          have hE : Entry indent ls x n := ⟨hin, he, (argName_iff x n).1 ha⟩
          have hle : leadingSpaces x ≤ st.argIndent := by omega
          refine ⟨hlen, hin', ?_, ?_, ?_, hr, hd, hl⟩
          · intro m
            show m ≤ leadingSpaces x ↔ _
            rw [ind_snoc hE, ← and_assoc, ← h.ind]
            exact ⟨fun h' => ⟨by omega, h'⟩, fun h' => h'.2⟩
          · intro n' k d
            show (n', k, d) ∈ st.args ++ [(n, st.i, leadingSpaces x)] ↔ _
            rw [List.mem_append, documents_snoc, h.args, List.mem_singleton]
            refine or_congr Iff.rfl ⟨?_, ?_⟩
            · intro hh
              injection hh with hn hh
              injection hh with hk hdd
              subst hn hk hdd
              exact ⟨h.i, hE, (indented_iff _ _).2 rfl, ((h.ind _).1 hle).1, fun a y b m e => ((h.ind _).1 hle).2 a y b m e⟩
            · rintro ⟨rfl, hE', hi, _, _⟩
              have : argName x = some n' := (argName_iff _ _).2 hE'.2.2
              rw [ha] at this
              injection this with this
              rw [this, (indented_iff _ _).1 hi, h.i]
          · show (st.args ++ [(n, st.i, leadingSpaces x)]).Pairwise _
            rw [List.pairwise_append]
            refine ⟨h.sorted, by simp, fun a ha b hb => ?_⟩
            rw [List.mem_singleton.1 hb]
            obtain ⟨n', k, d⟩ := a
            obtain ⟨a, y, b, rfl, rfl, _⟩ := (h.args n' k d).1 ha
            rw [h.i]; simp
  · rw [if_neg h5]
    have hno : ∀ n, ¬ Entry indent ls x n := fun n hn => h5 (h.inArgs.2 hn.1)
    refine ⟨hlen, ?_, keepInd hno, keepArgs hno, h.sorted, hr, hd, hl⟩
    rw [inArgs_snoc]
    exact ⟨fun h' => absurd h' h5, fun h' => h'.elim (fun h' => absurd h' noArgs) fun h' => absurd (h.inArgs.2 h'.1) h5⟩

theorem inv_init (indent : Nat) : Inv indent [] {} := by
  have nope : ∀ {a b : List Bytes} {y : Bytes}, ([] : List Bytes) ≠ a ++ y :: b := by intro a b y h; cases a <;> cases h
  refine ⟨rfl, ?_, ?_, ?_, .nil, ?_, ?_, ?_⟩
  · exact ⟨fun h => (by cases h), fun ⟨_, _, _, h, _⟩ => absurd h nope⟩
  · intro m; exact ⟨fun h => ⟨h, fun _ _ _ _ _ h => absurd h nope⟩, fun h => h.1⟩
  · intro n k d; exact ⟨fun h => (by cases h), fun ⟨_, _, _, h, _⟩ => absurd h nope⟩
  · exact ⟨fun h => (by cases h), fun ⟨_, h, _⟩ => (by cases h)⟩
  · exact ⟨fun h => (by cases h), fun ⟨_, h, _⟩ => (by cases h)⟩
  · intro k; exact ⟨fun h => (by cases h), fun ⟨_, _, _, h, _⟩ => absurd h nope⟩

theorem inv_foldl (indent : Nat) : ∀ (l ls : List Bytes) (st : St), Inv indent ls st → Inv indent (ls ++ l) (l.foldl (next indent) st)
  | [], ls, st, h => by simpa using h
  | x :: l, ls, st, h => by
    have := inv_foldl indent l (ls ++ [x]) _ (inv_next h x)
    simpa using this

theorem inv_parse (indent : Nat) (ls : List Bytes) : Inv indent ls (parseLines indent ls) := by
  have := inv_foldl indent ls [] {} (inv_init indent)
  rwa [List.nil_append] at this

/-! ### the lines of a docstring -/

theorem trimRight_spec (c : UInt8) (s : Bytes) : ∃ i, s = trimRight c s ++ List.replicate i c ∧ ∀ u, trimRight c s ≠ u ++ [c] := by
  obtain ⟨h1, h2, h3⟩ := takeWhile_sound (p := (· == c)) s.reverse
  refine ⟨(s.reverse.takeWhile (· == c)).length, ?_, ?_⟩
  · have : s.reverse.takeWhile (· == c) = List.replicate (s.reverse.takeWhile (· == c)).length c :=
      List.eq_replicate_iff.2 ⟨rfl, fun x hx => by simpa using h2 x hx⟩
    have h4 := congrArg List.reverse h1
    rw [List.reverse_append, List.reverse_reverse] at h4
    rw [this, List.reverse_replicate] at h4
    exact h4
  · intro u hu
    unfold trimRight at hu
    have := congrArg List.reverse hu
    rw [List.reverse_reverse, List.reverse_append] at this
    have := h3 c u.reverse this
    simp at this

theorem trim_unique {c : UInt8} {t t' : Bytes} {i i' : Nat} (h : t ++ List.replicate i c = t' ++ List.replicate i' c) (ht : ∀ u, t ≠ u ++ [c])
    (ht' : ∀ u, t' ≠ u ++ [c]) : t = t' := by
  induction i generalizing i' with
  | zero =>
    cases i' with
    | zero => simpa using h
    | succ i' =>
      rw [List.replicate_succ', ← List.append_assoc] at h
      rw [List.replicate_zero, List.append_nil] at h
      exact absurd h (ht _)
  | succ i ih =>
    cases i' with
    | zero =>
      rw [List.replicate_succ', ← List.append_assoc] at h
      rw [List.replicate_zero, List.append_nil] at h
      exact absurd h.symm (ht' _)
    | succ i' =>
      rw [List.replicate_succ', List.replicate_succ', ← List.append_assoc, ← List.append_assoc] at h
      exact ih (List.append_inj' h rfl).1

theorem trimmed_iff (l t : Bytes) : Trimmed l t ↔ t = trimRight c!" " (trimRight 13 l) := by
  obtain ⟨j, h1, h2⟩ := trimRight_spec 13 l
  obtain ⟨i, h3, h4⟩ := trimRight_spec c!" " (trimRight 13 l)
  constructor
  · rintro ⟨i', j', h, h5, h6⟩
    rw [← List.append_assoc] at h
    have hu : ∀ u, t ++ List.replicate i' c!" " ≠ u ++ [13] := by
      intro u hu
      cases i' with
      | zero => exact h6 rfl u (by simpa using hu)
      | succ i' =>
        rw [List.replicate_succ', ← List.append_assoc] at hu
        have := (List.append_inj' hu rfl).2
        injection this with this; cases this
    have e1 : t ++ List.replicate i' c!" " = trimRight 13 l := trim_unique (h.symm.trans h1) hu h2
    exact trim_unique (e1.trans h3) h5 h4
  · rintro rfl
    refine ⟨i, j, ?_, h4, ?_⟩
    · rw [← List.append_assoc, ← h3]; exact h1
    · rintro rfl u hu
      refine h2 u ?_
      rw [h3, hu]; simp

theorem docLines_iff (d : StringN) (ts : List Bytes) : DocLines d ts ↔ ts = docLines d.value := by
  unfold docLines
  constructor
  · rintro ⟨ls, ⟨h1, h2, h3⟩, hl, h4⟩
    have : splitAll 10 d.value = ls := by rw [h1]; exact splitAll_joinWith 10 ls h2 h3
    rw [this]
    refine List.ext_getElem? fun i => ?_
    rw [List.getElem?_map]
    by_cases hi : i < ls.length
    · rw [List.getElem?_eq_getElem hi, List.getElem?_eq_getElem (hl ▸ hi)]
      exact congrArg some ((trimmed_iff _ _).1 (h4 i _ _ (List.getElem?_eq_getElem hi) (List.getElem?_eq_getElem (hl ▸ hi))))
    · rw [List.getElem?_eq_none (by omega), List.getElem?_eq_none (by omega)]; rfl
  · rintro rfl
    refine ⟨splitAll 10 d.value, ⟨(joinWith_splitAll' 10 _).symm, splitAll_ne_nil 10 _, splitAll_no_sep 10 _⟩, by simp, ?_⟩
    intro i l t hl ht
    rw [List.getElem?_map, hl] at ht
    injection ht with ht
    exact (trimmed_iff _ _).2 ht.symm

theorem hasHeader_iff (ts : List Bytes) : hasHeader ts = true ↔ Summary ts := by
  induction ts with
  | nil => exact ⟨fun h => (by cases h), fun ⟨a, _, _, h, _⟩ => (by cases a <;> cases h)⟩
  | cons x l ih =>
    cases x with
    | nil =>
      rw [hasHeader, ih]
      constructor
      · rintro ⟨a, h, b, rfl, h1, h2⟩
        exact ⟨[] :: a, h, b, rfl, by simpa using h1, h2⟩
      · rintro ⟨a, h, b, he, h1, h2, h3⟩
        cases a with
        | nil => injection he with he; exact absurd he.symm h2
        | cons y a =>
          injection he with _ he
          exact ⟨a, h, b, he, fun z hz => h1 z (by simp [hz]), h2, h3⟩
    | cons c w =>
      have key : Summary ((c :: w) :: l) ↔ (l = [] ∨ ∃ b', l = [] :: b') := by
        constructor
        · rintro ⟨a, h, b, he, h1, h2, h3⟩
          cases a with
          | nil => injection he with _ he; rw [he]; exact h3
          | cons y a =>
            injection he with he
            have := h1 y (by simp)
            rw [this] at he; cases he
        · intro h; exact ⟨[], _, l, rfl, by simp, by simp, h⟩
      rw [key]
      cases l with
      | nil => exact ⟨fun _ => .inl rfl, fun _ => rfl⟩
      | cons n l =>
        simp only [hasHeader, decide_eq_true_eq]
        constructor
        · rintro rfl; exact .inr ⟨l, rfl⟩
        · rintro (h | ⟨b, h⟩)
          · cases h
          · injection h

/-- **C86**: what the docstring of a function says. The documented arguments, with line and indentation; whether the return value is documented. -/
theorem C86_documented (d : StringN) : ∃ ts, DocLines d ts ∧
    (∀ n k c, (n, k, c) ∈ (parseDoc d).args ↔ Documents (d.start.lineRune - 1) ts n k c) ∧
    ((parseDoc d).returns = true ↔ ∃ x ∈ ts, Heading (d.start.lineRune - 1) b!"Returns:" x) ∧
    ((parseDoc d).deprecated = true ↔ ∃ x ∈ ts, Heading (d.start.lineRune - 1) b!"Deprecated:" x) := by
  have h := inv_parse (indentOf d) (docLines d.value)
  exact ⟨_, (docLines_iff d _).2 rfl, h.args, h.returns, h.deprecated⟩

/-- **C86**: a docstring is reported for its summary iff it is the docstring of a function (at any depth) that does not begin with a one-line summary. -/
theorem C86_header (f : Expr) (d : StringN) : d ∈ headerWarning f ↔
    ∃ q c p n ps b cp fc fm t, Flow.NodeAt f q (.defS c p n ps b cp fc fm t) ∧ Doc b d ∧ ∃ ts, DocLines d ts ∧ ¬ Summary ts := by
  unfold headerWarning
  rw [List.mem_flatMap]
  constructor
  · rintro ⟨⟨q, st, x⟩, hq, h⟩
    cases x with
    | defS c p n ps b cp fc fm t =>
      simp only [badHeader, Option.mem_toList] at h
      cases hd : docOf b with
      | none => rw [hd] at h; cases h
      | some d' =>
        rw [hd] at h
        simp only at h
        by_cases hh : hasHeader (docLines d'.value) = true
        · rw [if_pos hh] at h; cases h
        · rw [if_neg hh] at h
          injection h with h
          subst h
          exact ⟨q, c, p, n, ps, b, cp, fc, fm, t, (Flow.walkSt_node (by exact nofun) q.length q (Nat.le_refl _) [] f).1 ⟨st, hq⟩, (docOf_iff b d').1 hd, _,
            (docLines_iff d' _).2 rfl, fun hs => hh ((hasHeader_iff _).2 hs)⟩
    | _ => cases h
  · rintro ⟨q, c, p, n, ps, b, cp, fc, fm, t, hn, hd, ts, hts, hs⟩
    obtain ⟨st, hst⟩ := (Flow.walkSt_node (by exact nofun) q.length q (Nat.le_refl _) [] f).2 hn
    refine ⟨_, hst, ?_⟩
    simp only [badHeader, Option.mem_toList, (docOf_iff b d).2 hd]
    rw [if_neg]
    rw [hasHeader_iff, ← (docLines_iff d ts).1 hts]; exact hs

theorem node_trans {f v : Expr} {q : Flow.Path} (h : Flow.NodeAt f q v) : ∀ {r x}, Flow.NodeAt v r x → Flow.NodeAt f (q ++ r) x := by
  induction h with
  | self => intro r x h; exact h
  | file c l j s d x hj _ ih => intro r y h; exact .file c l j s _ y hj (ih h)
  | defS c p n ps l cp fc fm t j s d x hj _ ih => intro r y h; exact .defS c p n ps l cp fc fm t j s _ y hj (ih h)
  | sub v k l j s d x hs hj _ ih => intro r y h; exact .sub v k l j s _ y hs hj (ih h)

/-- **C86**: a docstring is reported for its return value iff it is the docstring of a function for which one is required and which has a `return` with a value
(not in a nested function), and no line of it is `Returns:`, indented as the docstring. -/
theorem C86_return (f : Expr) (hfile : ∀ q c l, Flow.NodeAt f q (.file c l) → q = []) (d : StringN) : d ∈ returnWarning f ↔
    ∃ q c p n ps b cp fc fm t, Flow.NodeAt f q (.defS c p n ps b cp fc fm t) ∧ Doc b d ∧ Required p n b ∧
      (∃ q' c' p' r, Flow.StmtIn 0 b q' (.returnS c' p' r) ∧ r ≠ .nil) ∧ ∃ ts, DocLines d ts ∧ ∀ x ∈ ts, ¬ Heading (d.start.lineRune - 1) b!"Returns:" x := by
  have inBody : ∀ {l : List Expr} {q i s}, Flow.StmtIn i l q s → i = 0 → ∃ j r t, q = j :: r ∧ l[j]? = some t ∧ Flow.NodeAt t r s := by
    intro l q i s h
    induction h with
    | here i j l s hj => rintro rfl; exact ⟨j, [], s, by simp, hj, .self s⟩
    | inside i j l s k l' q s' hj hs _ ih =>
      rintro rfl
      obtain ⟨j', r, t, rfl, hj', hn⟩ := ih rfl
      exact ⟨j, k :: j' :: r, s, by simp, hj, .sub s k l' j' t r s' hs hj' hn⟩
  have noFile : ∀ {q c p n ps b cp fc fm t}, Flow.NodeAt f q (.defS c p n ps b cp fc fm t) → ∀ q' c l', ¬ Flow.StmtIn 0 b q' (.file c l') := by
    intro q c p n ps b cp fc fm t hn q' c' l' hs
    obtain ⟨j, r, t', rfl, hj, hn'⟩ := inBody hs rfl
    have := hfile _ _ _ (node_trans hn (.defS c p n ps b cp fc fm t j t' r _ hj hn'))
    simp at this
  unfold returnWarning
  rw [List.mem_flatMap]
  constructor
  · rintro ⟨⟨q, st, x⟩, hq, h⟩
    cases x with
    | defS c p n ps b cp fc fm t =>
      simp only [lacksReturn, Option.mem_toList] at h
      cases hd : docOf b with
      | none => rw [hd] at h; cases h
      | some d' =>
        rw [hd] at h
        simp only at h
        by_cases hh : (required p n b && Flow.hasValueReturn (.defS c p n ps b cp fc fm t) && !(parseDoc d').returns) = true
        · rw [if_pos hh] at h
          injection h with h
          subst h
          have hn := (Flow.walkSt_node (by exact nofun) q.length q (Nat.le_refl _) [] f).1 ⟨st, hq⟩
          rw [Bool.and_eq_true, Bool.and_eq_true, required_iff, Flow.hasValueReturn_iff (noFile hn), Bool.not_eq_true'] at hh
          obtain ⟨ts, h1, _, h2, _⟩ := C86_documented d'
          refine ⟨q, c, p, n, ps, b, cp, fc, fm, t, hn, (docOf_iff b d').1 hd, hh.1.1, hh.1.2, ts, h1, fun x hx hH => ?_⟩
          rw [h2.2 ⟨x, hx, hH⟩] at hh; cases hh.2
        · rw [if_neg hh] at h; cases h
    | _ => cases h
  · rintro ⟨q, c, p, n, ps, b, cp, fc, fm, t, hn, hd, hr, hv, ts, hts, hs⟩
    obtain ⟨st, hst⟩ := (Flow.walkSt_node (by exact nofun) q.length q (Nat.le_refl _) [] f).2 hn
    refine ⟨_, hst, ?_⟩
    simp only [lacksReturn, Option.mem_toList, (docOf_iff b d).2 hd]
    rw [if_pos]
    rw [Bool.and_eq_true, Bool.and_eq_true, required_iff, Flow.hasValueReturn_iff (noFile hn), Bool.not_eq_true', ← Bool.not_eq_true]
    refine ⟨⟨hr, hv⟩, fun h => ?_⟩
    obtain ⟨ts', h1, _, h2, _⟩ := C86_documented d
    obtain ⟨x, hx, hH⟩ := h2.1 h
    rw [(docLines_iff d ts').1 h1, ← (docLines_iff d ts).1 hts] at hx
    exact hs x hx hH

/-! ### arguments -/

/-- the parameters' names as they are written, in order; parameters without a name (a bare star) have none -/
inductive AllWritten : List Expr → List Bytes → Prop
  | nil : AllWritten [] []
  | named (x l n ns) : Written x n → AllWritten l ns → AllWritten (x :: l) (n :: ns)
  | bare (x l ns) : (∀ n, ¬ Written x n) → AllWritten l ns → AllWritten (x :: l) ns

theorem written_iff (x : Expr) (n : Bytes) : Written x n ↔ Bzlenv.paramName x ≠ [] ∧ n = paramOp x ++ Bzlenv.paramName x := by
  constructor
  · intro h
    induction h with
    | ident i h => exact ⟨h, rfl⟩
    | typed c i t h => exact ⟨h, rfl⟩
    | default c l p op b r n _ ih => exact ih
    | star c p op x n hn h =>
      have : n = Bzlenv.paramName x := (Bzlenv.paramName_iff x n).2 (.inl h)
      subst this
      exact ⟨hn, rfl⟩
  · rintro ⟨h, rfl⟩
    induction x using Bzlenv.paramName.induct with
    | case1 i => exact .ident i h
    | case2 c i t => exact .typed c i t h
    | case3 c l p op b r ih => exact .default c l p op b r _ (ih h)
    | case4 c p op x ih =>
      have h' : Bzlenv.paramName x ≠ [] := h
      rcases (Bzlenv.paramName_iff x _).1 rfl with h1 | h1
      · exact .star c p op x _ h' h1
      · exact absurd h1.1 h'
    | case5 e h1 h2 h3 h4 =>
      exfalso; apply h
      unfold Bzlenv.paramName
      split <;> first | rfl | (exfalso; first | exact h1 _ rfl | exact h2 _ _ _ rfl | exact h3 _ _ _ _ _ _ rfl | exact h4 _ _ _ _ rfl)

theorem paramNames_all : ∀ ps : List Expr, AllWritten ps (paramNames ps)
  | [] => .nil
  | x :: l => by
    unfold paramNames
    rw [List.flatMap_cons]
    by_cases h : Bzlenv.paramName x = []
    · rw [if_pos h]
      exact .bare x l _ (fun n hn => ((written_iff x n).1 hn).1 h) (paramNames_all l)
    · rw [if_neg h]
      exact .named x l _ _ ((written_iff x _).2 ⟨h, rfl⟩) (paramNames_all l)

theorem allWritten_unique {ps : List Expr} {ns ms : List Bytes} (h : AllWritten ps ns) (h' : AllWritten ps ms) : ns = ms := by
  induction h generalizing ms with
  | nil => cases h'; rfl
  | named x l n ns hn _ ih =>
    cases h' with
    | named _ _ n' ns' hn' h' => rw [ih h', ((written_iff x n).1 hn).2, ((written_iff x n').1 hn').2]
    | bare _ _ _ hb _ => exact absurd hn (hb n)
  | bare x l ns hb _ ih =>
    cases h' with
    | named _ _ n' ns' hn' h' => exact absurd hn' (hb n')
    | bare _ _ _ _ h' => exact ih h'

theorem allWritten_mem {ps : List Expr} {ns : List Bytes} (h : AllWritten ps ns) (n : Bytes) : n ∈ ns ↔ ∃ x ∈ ps, Written x n := by
  induction h with
  | nil => simp
  | named x l m ns hm _ ih =>
    rw [List.mem_cons, ih]
    constructor
    · rintro (rfl | ⟨y, hy, h⟩)
      · exact ⟨x, by simp, hm⟩
      · exact ⟨y, by simp [hy], h⟩
    · rintro ⟨y, hy, h⟩
      rcases List.mem_cons.1 hy with rfl | hy
      · exact .inl (((written_iff y n).1 h).2.trans ((written_iff y m).1 hm).2.symm)
      · exact .inr ⟨y, hy, h⟩
  | bare x l ns hb _ ih =>
    rw [ih]
    constructor
    · rintro ⟨y, hy, h⟩; exact ⟨y, by simp [hy], h⟩
    · rintro ⟨y, hy, h⟩
      rcases List.mem_cons.1 hy with rfl | hy
      · exact absurd h (hb n)
      · exact ⟨y, hy, h⟩

/-- line `k`, with indentation `c`, is the last one that documents the argument -/
def LastDoc (indent : Nat) (ts : List Bytes) (n : Bytes) (k c : Nat) : Prop :=
  Documents indent ts n k c ∧ ∀ k' c', Documents indent ts n k' c' → k' ≤ k

/-- What is to be reported about the arguments of a function with these parameters, whose docstring, indented by `indent`, has these lines. `req`: a docstring is required. -/
inductive Reported (req : Prop) (indent : Nat) (ps : List Expr) (ts : List Bytes) : Finding → Prop
  /-- `Arguments:` instead of `Args:` -/
  | arguments (k) : LastArguments indent ts k → 0 < indent → Reported req indent ps ts (.arguments k indent)
  /-- parameters that are not documented, if a docstring is required or any is documented: all of them, in order -/
  | undocumented (ns ms : List Bytes) (test : Bytes → Bool) : (req ∨ ∃ n k c, Documents indent ts n k c) → AllWritten ps ns →
      (∀ n, test n = true ↔ ∀ k c, ¬ Documents indent ts n k c) → ms = ns.filter test → ms ≠ [] → Reported req indent ps ts (.undocumented ms)
  /-- documented arguments that are no parameters -/
  | unknown (n k c) : LastDoc indent ts n k c → (∀ x ∈ ps, ¬ Written x n) → Reported req indent ps ts (.unknown n k (indent + c))

theorem iterates_last {indent : Nat} {ts : List Bytes} {st : St} (h : Inv indent ts st) {order : List (Bytes × Nat × Nat)} (ho : Iterates st.args order) (n : Bytes) (k c : Nat) :
    (n, k, c) ∈ order ↔ LastDoc indent ts n k c := by
  rw [ho.2]
  constructor
  · rintro ⟨a, b, hab, hb⟩
    have hs := h.sorted
    rw [hab, List.pairwise_append] at hs
    refine ⟨(h.args n k c).1 (by rw [hab]; simp), fun k' c' hd => ?_⟩
    have hm := (h.args n k' c').2 hd
    rw [hab, List.mem_append, List.mem_cons] at hm
    rcases hm with hm | hm | hm
    · exact Nat.le_of_lt (hs.2.2 _ hm (n, k, c) (by simp))
    · injection hm with _ hm
      injection hm with hm
      rw [hm]; exact Nat.le_refl _
    · exact absurd hm (hb _)
  · rintro ⟨hd, hl⟩
    obtain ⟨a, b, hab⟩ := List.append_of_mem ((h.args n k c).2 hd)
    refine ⟨a, b, hab, fun ⟨k', c'⟩ hm => ?_⟩
    have hs := h.sorted
    rw [hab, List.pairwise_append, List.pairwise_cons] at hs
    have h1 := hs.2.1.1 _ hm
    have h2 := hl k' c' ((h.args n k' c').1 (by rw [hab]; simp [hm]))
    have : k < k' := h1
    omega

theorem argFindings_iff {req : Bool} {indent : Nat} {ps : List Expr} {ts : List Bytes} {st : St} (h : Inv indent ts st) {order : List (Bytes × Nat × Nat)}
    (ho : Iterates st.args order) (x : Finding) : x ∈ argFindings req indent ps st order ↔ Reported (req = true) indent ps ts x := by
  have hpre : x ∈ argumentsFinding indent st.arguments ↔
      ∃ k, LastArguments indent ts k ∧ 0 < indent ∧ x = .arguments k indent := by
    cases ha : st.arguments with
    | none =>
      refine ⟨fun h' => (by cases h'), fun ⟨k, h', _⟩ => ?_⟩
      rw [(h.arguments k).2 h'] at ha; cases ha
    | some k =>
      have hk := (h.arguments k).1 ha
      have huniq : ∀ k', LastArguments indent ts k' → k' = k := fun k' h' => by
        have := (h.arguments k').2 h'
        rw [ha] at this
        injection this with this; exact this.symm
      unfold argumentsFinding
      simp only
      by_cases hi : indent > 0
      · rw [if_pos hi, List.mem_singleton]
        refine ⟨fun h' => ⟨k, hk, hi, h'⟩, ?_⟩
        rintro ⟨k', h1, _, rfl⟩
        rw [huniq k' h1]
      · rw [if_neg hi]
        exact ⟨fun h' => (by cases h'), fun ⟨_, _, h', _⟩ => absurd h' hi⟩
  have hany : st.args.isEmpty = false ↔ ∃ n k c, Documents indent ts n k c := by
    rw [List.isEmpty_eq_false_iff_exists_mem]
    constructor
    · rintro ⟨⟨n, k, c⟩, hm⟩; exact ⟨n, k, c, (h.args n k c).1 hm⟩
    · rintro ⟨n, k, c, hd⟩; exact ⟨_, (h.args n k c).2 hd⟩
  have hord : (∃ n k c, LastDoc indent ts n k c) → ∃ n k c, Documents indent ts n k c := fun ⟨n, k, c, h'⟩ => ⟨n, k, c, h'.1⟩
  have hmiss : ∀ n, (!(st.args.map (·.1)).contains n) = true ↔ ∀ k c, ¬ Documents indent ts n k c := by
    intro n
    rw [Bool.not_eq_true', ← Bool.not_eq_true, List.contains_iff_mem, List.mem_map]
    constructor
    · intro h' k c hd; exact h' ⟨(n, k, c), (h.args n k c).2 hd, rfl⟩
    · rintro h' ⟨⟨n', k, c⟩, hm, rfl⟩; exact h' k c ((h.args _ k c).1 hm)
  have hw := paramNames_all ps
  unfold argFindings
  simp only
  by_cases hc : (!req && st.args.isEmpty) = true
  · rw [if_pos hc, hpre]
    rw [Bool.and_eq_true, Bool.not_eq_true'] at hc
    have hno : ¬ ∃ n k c, Documents indent ts n k c := fun h' => by rw [hany.2 h'] at hc; cases hc.2
    constructor
    · rintro ⟨k, h1, h2, rfl⟩; exact .arguments k h1 h2
    · intro h'
      cases h' with
      | arguments k h1 h2 => exact ⟨k, h1, h2, rfl⟩
      | undocumented ns ms test h1 => rw [hc.1] at h1; exact absurd h1 (by simpa using hno)
      | unknown n k c h1 => exact absurd ⟨n, k, c, h1.1⟩ hno
  · rw [if_neg hc, List.mem_append, List.mem_append, hpre]
    have hreq : req = true ∨ ∃ n k c, Documents indent ts n k c := by
      rw [← hany]
      cases req <;> cases hE : st.args.isEmpty <;> simp_all
    constructor
    · rintro ((⟨k, h1, h2, rfl⟩ | h1) | h1)
      · exact .arguments k h1 h2
      · by_cases he : ((paramNames ps).filter fun n => !(st.args.map (·.1)).contains n).isEmpty = true
        · rw [if_pos he] at h1; cases h1
        · rw [if_neg he, List.mem_singleton] at h1
          subst h1
          exact .undocumented _ _ _ hreq hw hmiss rfl (fun h' => he (by rw [h']; rfl))
      · rw [List.mem_map] at h1
        obtain ⟨⟨n, k, c⟩, hm, rfl⟩ := h1
        rw [List.mem_filter, iterates_last h ho, Bool.not_eq_true', ← Bool.not_eq_true, List.contains_iff_mem, allWritten_mem hw] at hm
        exact .unknown n k c hm.1 fun y hy hyn => hm.2 ⟨y, hy, hyn⟩
    · intro h'
      cases h' with
      | arguments k h1 h2 => exact .inl (.inl ⟨k, h1, h2, rfl⟩)
      | undocumented ns ms test h1 h2 h3 h4 h5 =>
        rw [allWritten_unique h2 hw] at h4
        have : (paramNames ps).filter test = (paramNames ps).filter fun n => !(st.args.map (·.1)).contains n :=
          List.filter_congr fun n _ => by
            rw [Bool.eq_iff_iff, h3, hmiss]
        rw [this] at h4
        refine .inl (.inr ?_)
        rw [if_neg (by rw [← h4]; simpa using h5), List.mem_singleton, h4]
      | unknown n k c h1 h2 =>
        refine .inr (List.mem_map.2 ⟨(n, k, c), ?_, rfl⟩)
        rw [List.mem_filter, iterates_last h ho, Bool.not_eq_true', ← Bool.not_eq_true, List.contains_iff_mem, allWritten_mem hw]
        exact ⟨h1, fun ⟨y, hy, hyn⟩ => h2 y hy hyn⟩

/-- **C86**: what is reported about arguments, in whatever order the map of documented arguments is iterated: for each docstring of a function, at any depth, exactly
what `Reported` says. -/
theorem C86_args (iter : List (Bytes × Nat × Nat) → List (Bytes × Nat × Nat)) (hi : ∀ l, Iterates l (iter l)) (f : Expr) (d : StringN) (x : Finding) :
    (d, x) ∈ argsWarning iter f ↔
      ∃ q c p n ps b cp fc fm t, Flow.NodeAt f q (.defS c p n ps b cp fc fm t) ∧ Doc b d ∧ ∃ ts, DocLines d ts ∧
        Reported (Required p n b) (d.start.lineRune - 1) ps ts x := by
  have conv : ∀ {p n b} {ps : List Expr} {ts : List Bytes} {i : Nat}, Reported (required p n b = true) i ps ts x ↔ Reported (Required p n b) i ps ts x := by
    intro p n b ps ts i
    rw [show (required p n b = true) = Required p n b from propext (required_iff p n b)]
  unfold argsWarning
  rw [List.mem_flatMap]
  constructor
  · rintro ⟨⟨q, st, y⟩, hq, h⟩
    cases y with
    | defS c p n ps b cp fc fm t =>
      simp only [argFinding] at h
      cases hd : docOf b with
      | none => rw [hd] at h; cases h
      | some d' =>
        rw [hd] at h
        simp only [List.mem_map] at h
        obtain ⟨y, hy, he⟩ := h
        injection he with h1 h2
        subst h1 h2
        refine ⟨q, c, p, n, ps, b, cp, fc, fm, t, (Flow.walkSt_node (by exact nofun) q.length q (Nat.le_refl _) [] f).1 ⟨st, hq⟩, (docOf_iff b d').1 hd, _,
          (docLines_iff d' _).2 rfl, conv.1 ?_⟩
        exact (argFindings_iff (inv_parse _ _) (hi _) _).1 hy
    | _ => cases h
  · rintro ⟨q, c, p, n, ps, b, cp, fc, fm, t, hn, hd, ts, hts, hr⟩
    obtain ⟨st, hst⟩ := (Flow.walkSt_node (by exact nofun) q.length q (Nat.le_refl _) [] f).2 hn
    refine ⟨_, hst, ?_⟩
    simp only [argFinding, (docOf_iff b d).2 hd, List.mem_map]
    rw [(docLines_iff d ts).1 hts] at hr
    exact ⟨x, (argFindings_iff (inv_parse _ _) (hi _) _).2 (conv.2 hr), rfl⟩

/-! ### examples -/

/-- one way to iterate the map: in the order of the last assignments -/
def byLast : List (Bytes × Nat × Nat) → List (Bytes × Nat × Nat)
  | [] => []
  | e :: l => if l.any (fun x => x.1 == e.1) then byLast l else e :: byLast l

/-- the hypothesis of `C86_args` can be met -/
theorem C86_iter_exists (l : List (Bytes × Nat × Nat)) : Iterates l (byLast l) := by
  induction l with
  | nil => exact ⟨.nil, fun n v => ⟨fun h => (by cases h), fun ⟨a, _, h, _⟩ => (by cases a <;> cases h)⟩⟩
  | cons e l ih =>
    unfold byLast
    have key : ∀ n v, (∃ a b, e :: l = a ++ (n, v) :: b ∧ ∀ w, (n, w) ∉ b) ↔ (e = (n, v) ∧ ∀ w, (n, w) ∉ l) ∨ ∃ a b, l = a ++ (n, v) :: b ∧ ∀ w, (n, w) ∉ b := by
      intro n v
      constructor
      · rintro ⟨a, b, h, hb⟩
        cases a with
        | nil => injection h with h1 h2; exact .inl ⟨h1, h2 ▸ hb⟩
        | cons y a => injection h with h1 h2; exact .inr ⟨a, b, h2, hb⟩
      · rintro (⟨rfl, hb⟩ | ⟨a, b, rfl, hb⟩)
        · exact ⟨[], l, rfl, hb⟩
        · exact ⟨e :: a, b, rfl, hb⟩
    by_cases h : l.any (fun x => x.1 == e.1) = true
    · rw [if_pos h]
      refine ⟨ih.1, fun n v => ?_⟩
      rw [key, ih.2]
      refine ⟨.inr, fun h' => h'.elim (fun h' => ?_) id⟩
      obtain ⟨x, hx, hxe⟩ := List.any_eq_true.1 h
      obtain ⟨m, w⟩ := x
      rw [h'.1] at hxe
      have : m = n := by simpa using hxe
      subst this
      exact absurd hx (h'.2 w)
    · rw [if_neg h]
      have hno : ∀ w, (e.1, w) ∉ l := fun w hw => h (List.any_eq_true.2 ⟨_, hw, by simp⟩)
      constructor
      · rw [List.map_cons, List.nodup_cons]
        refine ⟨fun hm => ?_, ih.1⟩
        obtain ⟨⟨m, w⟩, hx, hxe⟩ := List.mem_map.1 hm
        obtain ⟨a, b, hab, _⟩ := (ih.2 m w).1 hx
        have hxe' : m = e.1 := hxe
        subst hxe'
        exact hno w (by rw [hab]; simp)
      · intro n v
        rw [key, List.mem_cons, ih.2]
        refine or_congr ⟨fun h' => ?_, fun h' => h'.1.symm⟩ Iff.rfl
        subst h'
        exact ⟨rfl, hno⟩

/-- a docstring at column 5 -/
def exDoc (v : Bytes) : StringN := { start := { line := 2, lineRune := 5, byte := 20 }, value := v, triple := true }
/-- the function `f(x, *args)` with this docstring -/
def exDef (v : Bytes) (body : List Expr) : Expr :=
  .defS {} { line := 1, lineRune := 1 } b!"f" [.ident { name := b!"x" }, .unary {} {} b!"*" (.ident { name := b!"args" })] (.string (exDoc v) :: body) {} false false .nil
/-- a statement -/
def exPass : Expr := .branch {} b!"pass" {}

/-- The docstring documents `x` and `y`, not `*args`: both are reported. The position of `y` is column 10 of its line, though `y` is at column 7: the indentation of the
docstring is counted twice. Indented lines belong to the argument before. -/
theorem C86_args_example :
    argsWarning byLast (.file {} [exDef b!"Sum.\n\n    Args:\n      x: foo\n        z: bar\n      y (list[int]): baz\n    " []]) =
      [(exDoc b!"Sum.\n\n    Args:\n      x: foo\n        z: bar\n      y (list[int]): baz\n    ", .undocumented [b!"*args"]),
       (exDoc b!"Sum.\n\n    Args:\n      x: foo\n        z: bar\n      y (list[int]): baz\n    ", .unknown b!"y" 5 10)] := by
  decide +kernel

/-- A line of the section that begins with a colon documents the argument with the empty name, which no function has. -/
theorem C86_empty_name_witness :
    argsWarning byLast (.file {} [exDef b!"Sum.\n\n    Args:\n      x: foo\n      *args: the others\n      : odd\n    " []]) =
      [(exDoc b!"Sum.\n\n    Args:\n      x: foo\n      *args: the others\n      : odd\n    ", .unknown b!"" 5 10)] := by
  decide +kernel

/-- The indentation is remembered from one section to the next: arguments of a second section that are indented more are not found. -/
theorem C86_second_section_witness :
    ((parseDoc (exDoc b!"Sum.\n\n    Args:\n      x: foo\n\n    Args:\n        y: bar\n    ")).args.map (·.1)) = [b!"x"] := by
  decide +kernel

/-- A function of five statements without docstring is reported, one of four is not. -/
theorem C86_function_example :
    (functionDocstring [.defS {} { line := 1, lineRune := 1 } b!"f" [] [exPass, exPass, .forS {} {} .nil .nil [exPass, exPass]] {} false false .nil]).length = 1 ∧
    (functionDocstring [.defS {} { line := 1, lineRune := 1 } b!"f" [] [exPass, exPass, .forS {} {} .nil .nil [exPass]] {} false false .nil]).length = 0 := by
  constructor <;> rfl

/-- `return 1` without `Returns:` is reported, and a summary of two lines. -/
theorem C86_return_example :
    (returnWarning (.file {} [exDef b!"Sum.\n\n    Args:\n      x: foo" [exPass, exPass, exPass, .returnS {} {} (.literal {} {} b!"1")]])).length = 1 ∧
    (returnWarning (.file {} [exDef b!"Sum.\n\n    Returns:\n      foo" [exPass, exPass, exPass, .returnS {} {} (.literal {} {} b!"1")]])).length = 0 ∧
    (headerWarning (.file {} [exDef b!"Sum\n  of two.\n" []])).length = 1 := by
  refine ⟨?_, ?_, ?_⟩ <;> rfl

end Verif.Props.DocWarn
