import Verif.Model.StmtWarn
import Verif.Props.Flow
import Verif.Props.DocWarn
import Verif.Props.ApiWarn
import Verif.Props.TypeWarn
import Verif.Props.Labels
/-
C95: statements without effect, redefined variables, depsets that grow in loops. C96: deprecated functions.
-/
namespace Verif.Props.StmtWarn
open Verif Verif.Syntax Verif.Flow Verif.StmtWarn Verif.Types Verif.Props.Flow
open Verif.Props.DocWarn (IsComment Doc DocLines Heading)
open Verif.Props.Types (KidTy)
open Verif.Props.TypeWarn (OneOf)

/-! ### Specification -/

/-- where a block of statements is: the file, the body of a function, or a part of an `if` or `for` -/
inductive Kind where
  | file | function | inner
deriving DecidableEq

/-- the blocks of a file, with their paths -/
inductive Block (c : Comments) (stmts : List Expr) : Path → Kind → List Expr → Prop
  | file : Block c stmts [0] .file stmts
  | function {d c' p n ps b cp fc fm t} : NodeAt (.file c stmts) d (.defS c' p n ps b cp fc fm t) → Block c stmts (d ++ [0]) .function b
  | inner {d v k b} : NodeAt (.file c stmts) d v → Sub v k b → Block c stmts (d ++ [k]) .inner b

/-- statements that do something -/
inductive Useful : Expr → Prop
  | defS (c p n ps b cp fc fm t) : Useful (.defS c p n ps b cp fc fm t)
  | forS (c p v x b) : Useful (.forS c p v x b)
  | ifS (c p x t e f) : Useful (.ifS c p x t e f)
  | load (c p m f t r fc) : Useful (.load c p m f t r fc)
  | returnS (c p r) : Useful (.returnS c p r)
  | call (c x p l e a b) : Useful (.call c x p l e a b)
  | branch (c t p) : Useful (.branch c t p)
  | assign (c x p op lb y) : Useful (.assign c x p op lb y)

/-- what is said of a statement without effect in a block; a list comprehension at the top of a file is allowed -/
inductive Useless (kind : Kind) : Expr → Idle → Prop
  | string (s) : Useless kind (.string s) .string
  | compr (c curly p b cl fm e) : kind ≠ .file ∨ curly = true → Useless kind (.compr c curly p b cl fm e) .compr
  | plain (x) : ¬ IsComment x → ¬ Useful x → (∀ s, x ≠ .string s) → (∀ c curly p b cl fm e, x ≠ .compr c curly p b cl fm e) → Useless kind x .plain

/-- statement number `j` of the block is its docstring -/
def IsDoc (kind : Kind) (body : List Expr) (j : Nat) : Prop :=
  kind ≠ .inner ∧ (∃ s, body[j]? = some (.string s)) ∧ ∀ m < j, ∀ x, body[m]? = some x → IsComment x

/-! ### Statements without effect -/

theorem idle1_iff (kind : Kind) (x : Expr) (k : Idle) : idle1 (kind = .file) x = some k ↔ Useless kind x k := by
  constructor
  · intro h
    unfold idle1 at h
    split at h
    all_goals try (cases h; done)
    · rename_i c curly p b cl fm e
      split at h
      · rename_i hc
        cases h
        refine .compr _ _ _ _ _ _ _ ?_
        simpa using hc
      · cases h
    · cases h; exact .string _
    · rename_i h1 h2 h3 h4 h5 h6 h7 h8 h9 h10 h11 h12
      cases h
      refine .plain x ?_ ?_ h12 h11
      · rintro (rfl | ⟨c, p, rfl⟩)
        · exact h10 rfl
        · exact h7 _ _ rfl
      · intro hu
        cases hu with
        | defS => exact h1 _ _ _ _ _ _ _ _ _ rfl
        | forS => exact h2 _ _ _ _ _ rfl
        | ifS => exact h3 _ _ _ _ _ _ rfl
        | load => exact h4 _ _ _ _ _ _ _ rfl
        | returnS => exact h5 _ _ _ rfl
        | call => exact h6 _ _ _ _ _ _ _ rfl
        | branch => exact h8 _ _ _ rfl
        | assign => exact h9 _ _ _ _ _ _ rfl
  · intro h
    cases h with
    | string s => rfl
    | compr c curly p b cl fm e h =>
      exact if_pos (by simpa using h)
    | plain _ h1 h2 h3 h4 =>
      unfold idle1
      split
      all_goals first
        | rfl
        | exact absurd (.inl rfl) h1
        | exact absurd (.inr ⟨_, _, rfl⟩) h1
        | exact absurd rfl (h3 _)
        | exact absurd rfl (h4 _ _ _ _ _ _ _)
        | (exfalso; exact h2 (by constructor))

theorem comment_not_useless {kind : Kind} {x : Expr} {k : Idle} (h : IsComment x) : ¬ Useless kind x k := by
  rintro (_ | _ | ⟨_, h1⟩)
  · rcases h with h | ⟨_, _, h⟩ <;> cases h
  · rcases h with h | ⟨_, _, h⟩ <;> cases h
  · exact h1 h

def topOf (kind : Kind) : Bool := kind = .file
def funcOf (kind : Kind) : Bool := kind = .function

theorem block_iff (kind : Kind) : ∀ (l : List Expr) (i : Nat) (seen : Bool) (j : Nat) (k : Idle),
    (j, k) ∈ noEffectBlock (topOf kind) (funcOf kind) i seen l ↔
      ∃ m x, j = i + m ∧ l[m]? = some x ∧ Useless kind x k ∧ ¬ (seen = false ∧ IsDoc kind l m) := by
  have hkind : (topOf kind || funcOf kind) = true ↔ kind ≠ .inner := by cases kind <;> decide
  -- the statement at the front, and the others
  have front : ∀ (y : Expr) (l : List Expr) (i : Nat) (seen seen' : Bool) (j : Nat) (k : Idle) (out : List (Nat × Idle)),
      (seen' = false → seen = false ∧ IsComment y) → (seen' = true → seen = true ∨ ¬ IsComment y) →
      ((j, k) ∈ out ↔ ∃ m x, j = i + 1 + m ∧ l[m]? = some x ∧ Useless kind x k ∧ ¬ (seen' = false ∧ IsDoc kind l m)) →
      ((j = i ∧ Useless kind y k ∧ ¬ (seen = false ∧ IsDoc kind (y :: l) 0)) ∨ (j, k) ∈ out ↔
        ∃ m x, j = i + m ∧ (y :: l)[m]? = some x ∧ Useless kind x k ∧ ¬ (seen = false ∧ IsDoc kind (y :: l) m)) := by
    intro y l i seen seen' j k out hs hs' ih
    rw [ih]
    have hdoc : ∀ m, IsDoc kind (y :: l) (m + 1) ↔ IsComment y ∧ IsDoc kind l m := by
      intro m
      constructor
      · rintro ⟨h1, ⟨s, h2⟩, h3⟩
        refine ⟨h3 0 (by omega) y rfl, h1, ⟨s, by simpa using h2⟩, fun n hn x hx => h3 (n + 1) (by omega) x (by simpa using hx)⟩
      · rintro ⟨h0, h1, ⟨s, h2⟩, h3⟩
        refine ⟨h1, ⟨s, by simpa using h2⟩, fun n hn x hx => ?_⟩
        cases n with
        | zero => simp at hx; exact hx ▸ h0
        | succ n => exact h3 n (by omega) x (by simpa using hx)
    have hsd : ∀ m, (seen' = false ∧ IsDoc kind l m) ↔ (seen = false ∧ IsDoc kind (y :: l) (m + 1)) := by
      intro m
      rw [hdoc]
      constructor
      · rintro ⟨h1, h2⟩; exact ⟨(hs h1).1, (hs h1).2, h2⟩
      · rintro ⟨h1, h2, h3⟩
        refine ⟨?_, h3⟩
        cases hh : seen' with
        | false => rfl
        | true =>
          rcases hs' hh with h | h
          · rw [h] at h1; cases h1
          · exact absurd h2 h
    constructor
    · rintro (⟨rfl, h1, h2⟩ | ⟨m, x, h1, h2, h3, h4⟩)
      · exact ⟨0, y, rfl, rfl, h1, h2⟩
      · exact ⟨m + 1, x, by omega, by simpa using h2, h3, fun h => h4 ((hsd m).2 h)⟩
    · rintro ⟨m, x, h1, h2, h3, h4⟩
      cases m with
      | zero => simp at h2; subst h2; exact .inl ⟨h1, h3, h4⟩
      | succ m => exact .inr ⟨m, x, by omega, by simpa using h2, h3, fun h => h4 ((hsd m).1 h)⟩
  intro l
  induction l with
  | nil => intro i seen j k; simp [noEffectBlock]
  | cons y l ih =>
    intro i seen j k
    have comment : IsComment y → ((j, k) ∈ noEffectBlock (topOf kind) (funcOf kind) (i + 1) seen l ↔
        ∃ m x, j = i + m ∧ (y :: l)[m]? = some x ∧ Useless kind x k ∧ ¬ (seen = false ∧ IsDoc kind (y :: l) m)) := by
      intro hy
      rw [← front y l i seen seen j k _ (fun h => ⟨h, hy⟩) (fun h => .inl h) (ih (i + 1) seen j k)]
      constructor
      · exact .inr
      · rintro (⟨_, h, _⟩ | h)
        · exact absurd h (comment_not_useless hy)
        · exact h
    have other : ¬ IsComment y → (((j = i ∧ Useless kind y k ∧ ¬ (seen = false ∧ IsDoc kind (y :: l) 0)) ∨
        (j, k) ∈ noEffectBlock (topOf kind) (funcOf kind) (i + 1) true l) ↔
        ∃ m x, j = i + m ∧ (y :: l)[m]? = some x ∧ Useless kind x k ∧ ¬ (seen = false ∧ IsDoc kind (y :: l) m)) := by
      intro hy
      exact front y l i seen true j k _ (fun h => by cases h) (fun _ => .inr hy) (ih (i + 1) true j k)
    unfold noEffectBlock
    split
    · rename_i heq; cases heq
    · rename_i heq; cases heq; exact comment (.inl rfl)
    · rename_i heq; cases heq; exact comment (.inr ⟨_, _, rfl⟩)
    · rename_i s _ heq
      cases heq
      have hc : ¬ IsComment (.string s) := by rintro (h | ⟨_, _, h⟩) <;> cases h
      have hdoc : (seen = false ∧ IsDoc kind (.string s :: l) 0) ↔ (!seen && (topOf kind || funcOf kind)) = true := by
        rw [Bool.and_eq_true, hkind, Bool.not_eq_true']
        exact and_congr_right fun _ => ⟨fun h => h.1, fun h => ⟨h, ⟨s, rfl⟩, fun m hm => by omega⟩⟩
      rw [← other hc, hdoc]
      split
      · rename_i h
        exact ⟨.inr, fun h' => h'.elim (fun h' => absurd h h'.2.2) id⟩
      · rename_i h
        rw [List.mem_cons]
        refine or_congr ⟨fun h' => ?_, fun h' => ?_⟩ Iff.rfl
        · cases h'; exact ⟨rfl, .string s, h⟩
        · obtain ⟨rfl, h', _⟩ := h'
          cases h' with
          | string => rfl
          | plain _ _ _ h => exact absurd rfl (h s)
    · rename_i h1 h2 h3 heq
      cases heq
      have hc : ¬ IsComment y := by
        rintro (rfl | ⟨c, p, rfl⟩)
        · exact h1 rfl
        · exact h2 _ _ rfl
      have hnd : ¬ (seen = false ∧ IsDoc kind (y :: l) 0) := by
        rintro ⟨_, _, ⟨s, h⟩, _⟩
        simp at h
        exact h3 s h
      rw [← other hc]
      have hi : ∀ k', idle1 (topOf kind) y = some k' ↔ Useless kind y k' := idle1_iff kind y
      cases hk : idle1 (topOf kind) y with
      | none =>
        refine ⟨.inr, fun h => h.elim (fun h => ?_) id⟩
        rw [(hi k).2 h.2.1] at hk
        cases hk
      | some k' =>
        dsimp only
        rw [List.mem_cons]
        refine or_congr ⟨fun h' => ?_, fun h' => ?_⟩ Iff.rfl
        · cases h'; exact ⟨rfl, (hi _).1 hk, hnd⟩
        · obtain ⟨rfl, h', _⟩ := h'
          rw [(hi k).2 h'] at hk
          cases hk
          rfl

theorem in_iff (d : Path) (v : Expr) (q : Path) (k : Idle) : (q, k) ∈ noEffectIn d v ↔
    ∃ n kind b j, q = d ++ [n, j] ∧ ((kind = .inner ∧ Sub v n b) ∨ (kind = .function ∧ n = 0 ∧ ∃ c p m ps cp fc fm t, v = .defS c p m ps b cp fc fm t)) ∧
      (j, k) ∈ noEffectBlock (topOf kind) (funcOf kind) 0 false b := by
  have mem : ∀ (n : Nat) (l : List (Nat × Idle)), (q, k) ∈ l.map (fun r => (d ++ [n, r.1], r.2)) ↔ ∃ j, q = d ++ [n, j] ∧ (j, k) ∈ l := by
    intro n l
    rw [List.mem_map]
    constructor
    · rintro ⟨⟨j, k'⟩, h, he⟩
      cases he
      exact ⟨j, rfl, h⟩
    · rintro ⟨j, rfl, h⟩
      exact ⟨(j, k), h, rfl⟩
  constructor
  · intro h
    unfold noEffectIn at h
    split at h
    · obtain ⟨j, h1, h2⟩ := (mem _ _).1 h
      exact ⟨0, .inner, _, j, h1, .inl ⟨rfl, .forS _ _ _ _ _⟩, h2⟩
    · obtain ⟨j, h1, h2⟩ := (mem _ _).1 h
      exact ⟨0, .function, _, j, h1, .inr ⟨rfl, rfl, _, _, _, _, _, _, _, _, rfl⟩, h2⟩
    · rcases List.mem_append.1 h with h | h
      · obtain ⟨j, h1, h2⟩ := (mem _ _).1 h
        exact ⟨0, .inner, _, j, h1, .inl ⟨rfl, .ifTrue _ _ _ _ _ _⟩, h2⟩
      · obtain ⟨j, h1, h2⟩ := (mem _ _).1 h
        exact ⟨1, .inner, _, j, h1, .inl ⟨rfl, .ifFalse _ _ _ _ _ _⟩, h2⟩
    · cases h
  · rintro ⟨n, kind, b, j, h1, ⟨rfl, hs⟩ | ⟨rfl, rfl, c, p, m, ps, cp, fc, fm, t, rfl⟩, h2⟩
    · cases hs with
      | ifTrue => exact List.mem_append.2 (.inl ((mem _ _).2 ⟨j, h1, h2⟩))
      | ifFalse => exact List.mem_append.2 (.inr ((mem _ _).2 ⟨j, h1, h2⟩))
      | forS => exact (mem _ _).2 ⟨j, h1, h2⟩
    · exact (mem _ _).2 ⟨j, h1, h2⟩

/-- **C95**: the statements reported as having no effect, with the message, are exactly the statements of a block (the file, a function, a part of an `if` or
`for`, at any depth) that are expressions other than calls, except docstrings and list comprehensions at the top of the file. -/
theorem C95_no_effect (c : Comments) (stmts : List Expr) (q : Path) (k : Idle) : (q, k) ∈ noEffect c stmts ↔
    ∃ d kind body j x, Block c stmts d kind body ∧ q = d ++ [j] ∧ body[j]? = some x ∧ Useless kind x k ∧ ¬ IsDoc kind body j := by
  have body : ∀ (kind : Kind) (b : List Expr) (j : Nat), (j, k) ∈ noEffectBlock (topOf kind) (funcOf kind) 0 false b ↔
      ∃ x, b[j]? = some x ∧ Useless kind x k ∧ ¬ IsDoc kind b j := by
    intro kind b j
    rw [block_iff]
    constructor
    · rintro ⟨m, x, h1, h2, h3, h4⟩
      have : m = j := by omega
      subst this
      exact ⟨x, h2, h3, fun h => h4 ⟨rfl, h⟩⟩
    · rintro ⟨x, h2, h3, h4⟩
      exact ⟨j, x, by omega, h2, h3, fun h => h4 h.2⟩
  unfold noEffect
  rw [List.mem_append, List.mem_flatMap, List.mem_map]
  constructor
  · rintro (⟨⟨j, k'⟩, h, he⟩ | ⟨⟨d, st, v⟩, hv, h⟩)
    · cases he
      obtain ⟨x, h1, h2, h3⟩ := (body .file stmts j).1 h
      exact ⟨[0], .file, stmts, j, x, .file, rfl, h1, h2, h3⟩
    · obtain ⟨n, kind, b, j, rfl, hb, h⟩ := (in_iff d v q k).1 h
      obtain ⟨x, h1, h2, h3⟩ := (body kind b j).1 h
      have hnil : v ≠ .nil := by
        rintro rfl
        rcases hb with ⟨_, hs⟩ | ⟨_, _, _, _, _, _, _, _, _, _, he⟩
        · cases hs
        · cases he
      have hn := (walkSt_node hnil d.length d (Nat.le_refl _) [] (.file c stmts)).1 ⟨st, hv⟩
      refine ⟨d ++ [n], kind, b, j, x, ?_, by simp, h1, h2, h3⟩
      rcases hb with ⟨rfl, hs⟩ | ⟨rfl, rfl, _, _, _, _, _, _, _, _, rfl⟩
      · exact .inner hn hs
      · exact .function hn
  · rintro ⟨d, kind, b, j, x, hb, rfl, h1, h2, h3⟩
    have hm := (body kind b j).2 ⟨x, h1, h2, h3⟩
    cases hb with
    | file => exact .inl ⟨(j, k), hm, rfl⟩
    | function hn =>
      obtain ⟨st, hv⟩ := (walkSt_node (by simp) _ _ (Nat.le_refl _) [] (.file c stmts)).2 hn
      exact .inr ⟨_, hv, (in_iff _ _ _ _).2 ⟨0, .function, b, j, by simp, .inr ⟨rfl, rfl, _, _, _, _, _, _, _, _, rfl⟩, hm⟩⟩
    | inner hn hs =>
      obtain ⟨st, hv⟩ := (walkSt_node (by rintro rfl; cases hs) _ _ (Nat.le_refl _) [] (.file c stmts)).2 hn
      exact .inr ⟨_, hv, (in_iff _ _ _ _).2 ⟨_, .inner, b, j, by simp, .inl ⟨rfl, hs⟩, hm⟩⟩

/-! ### Redefined variables -/

/-- an assignment to the variable `name` -/
def Assigns (e : Expr) (name op : Bytes) : Prop := ∃ c i p lb r, e = .assign c (.ident i) p op lb r ∧ i.name = name

theorem assigned_iff (e : Expr) (name op : Bytes) : assigned e = some (name, op) ↔ Assigns e name op := by
  unfold assigned
  split
  · constructor
    · intro h; cases h; exact ⟨_, _, _, _, _, rfl, rfl⟩
    · rintro ⟨_, _, _, _, _, h, rfl⟩; cases h; rfl
  · rename_i h
    refine ⟨(fun h => nomatch h), ?_⟩
    rintro ⟨_, _, _, _, _, rfl, _⟩
    exact absurd rfl (h _ _ _ _ _ _)

theorem redefined_iff : ∀ (ks : List TNode) (i : Nat) (defined : List Bytes) (j : Nat), j ∈ redefinedLoop i defined ks ↔
    ∃ m k name op, j = i + m ∧ ks[m]? = some k ∧ Assigns k.expr name op ∧ (name ∈ defined ∨ ∃ n < m, ∃ k' op', ks[n]? = some k' ∧ Assigns k'.expr name op') ∧
      ¬ (op = b!"+=" ∧ OneOf k .list)
  | [], i, defined, j => by simp [redefinedLoop]
  | k :: l, i, defined, j => by
    have later : ∀ (defined' : List Bytes), (∀ name, name ∈ defined' ↔ name ∈ defined ∨ ∃ op, Assigns k.expr name op) →
        ((∃ m k2 name op, j = i + 1 + m ∧ l[m]? = some k2 ∧ Assigns k2.expr name op ∧
            (name ∈ defined' ∨ ∃ n < m, ∃ k' op', l[n]? = some k' ∧ Assigns k'.expr name op') ∧ ¬ (op = b!"+=" ∧ OneOf k2 .list)) ↔
          ∃ m k2 name op, j = i + (m + 1) ∧ (k :: l)[m + 1]? = some k2 ∧ Assigns k2.expr name op ∧
            (name ∈ defined ∨ ∃ n < m + 1, ∃ k' op', (k :: l)[n]? = some k' ∧ Assigns k'.expr name op') ∧ ¬ (op = b!"+=" ∧ OneOf k2 .list)) := by
      intro defined' hd
      refine exists_congr fun m => exists_congr fun k2 => exists_congr fun name => exists_congr fun op => ?_
      have : (name ∈ defined' ∨ ∃ n < m, ∃ k' op', l[n]? = some k' ∧ Assigns k'.expr name op') ↔
          (name ∈ defined ∨ ∃ n < m + 1, ∃ k' op', (k :: l)[n]? = some k' ∧ Assigns k'.expr name op') := by
        rw [hd]
        constructor
        · rintro ((h | ⟨op, h⟩) | ⟨n, hn, k', op', h1, h2⟩)
          · exact .inl h
          · exact .inr ⟨0, by omega, k, op, rfl, h⟩
          · exact .inr ⟨n + 1, by omega, k', op', by simpa using h1, h2⟩
        · rintro (h | ⟨n, hn, k', op', h1, h2⟩)
          · exact .inl (.inl h)
          · cases n with
            | zero => simp at h1; subst h1; exact .inl (.inr ⟨op', h2⟩)
            | succ n => exact .inr ⟨n, by omega, k', op', by simpa using h1, h2⟩
      rw [this, List.getElem?_cons_succ, show i + 1 + m = i + (m + 1) by omega]
    -- the two cases of the index
    have split : (∃ m k2 name op, j = i + m ∧ (k :: l)[m]? = some k2 ∧ Assigns k2.expr name op ∧
          (name ∈ defined ∨ ∃ n < m, ∃ k' op', (k :: l)[n]? = some k' ∧ Assigns k'.expr name op') ∧ ¬ (op = b!"+=" ∧ OneOf k2 .list)) ↔
        ((j = i ∧ ∃ name op, Assigns k.expr name op ∧ name ∈ defined ∧ ¬ (op = b!"+=" ∧ OneOf k .list)) ∨
          ∃ m k2 name op, j = i + (m + 1) ∧ (k :: l)[m + 1]? = some k2 ∧ Assigns k2.expr name op ∧
            (name ∈ defined ∨ ∃ n < m + 1, ∃ k' op', (k :: l)[n]? = some k' ∧ Assigns k'.expr name op') ∧ ¬ (op = b!"+=" ∧ OneOf k2 .list)) := by
      constructor
      · rintro ⟨m, k2, name, op, h1, h2, h3, h4, h5⟩
        cases m with
        | zero =>
          simp at h2
          subst h2
          refine .inl ⟨h1, name, op, h3, ?_, h5⟩
          rcases h4 with h4 | ⟨n, hn, _⟩
          · exact h4
          · omega
        | succ m => exact .inr ⟨m, k2, name, op, h1, h2, h3, h4, h5⟩
      · rintro (⟨h1, name, op, h3, h4, h5⟩ | ⟨m, k2, name, op, h⟩)
        · exact ⟨0, k, name, op, h1, rfl, h3, .inl h4, h5⟩
        · exact ⟨m + 1, k2, name, op, h⟩
    rw [split]
    have uniq : ∀ {e : Expr} {n n' o o' : Bytes}, Assigns e n o → Assigns e n' o' → n = n' ∧ o = o' := by
      rintro e n n' o o' ⟨c, i, p, lb, r, rfl, rfl⟩ ⟨_, _, _, _, _, h, rfl⟩
      cases h
      exact ⟨rfl, rfl⟩
    unfold redefinedLoop
    cases ha : assigned k.expr with
    | none =>
      have hno : ∀ name op, ¬ Assigns k.expr name op := fun name op h => by rw [(assigned_iff _ _ _).2 h] at ha; cases ha
      dsimp only
      rw [redefined_iff l (i + 1) defined j, later defined fun name => ⟨.inl, fun h => h.elim id fun ⟨op, h⟩ => absurd h (hno _ _)⟩]
      exact ⟨.inr, fun h => h.elim (fun ⟨_, _, _, h, _⟩ => absurd h (hno _ _)) id⟩
    | some r =>
      obtain ⟨name, op⟩ := r
      have hk := (assigned_iff _ _ _).1 ha
      dsimp only
      have hin : ∀ n, (∃ op, Assigns k.expr n op) ↔ n = name := fun n => ⟨fun ⟨_, h⟩ => (uniq h hk).1, fun h => ⟨op, h ▸ hk⟩⟩
      split
      · rename_i hd
        rw [redefined_iff l (i + 1) (name :: defined) j, later (name :: defined) fun n => by rw [hin]; simp [or_comm]]
        refine ⟨.inr, fun h => h.elim (fun ⟨_, n, o, h1, h2, _⟩ => ?_) id⟩
        exact absurd ((uniq h1 hk).1 ▸ h2) hd
      · rename_i hd
        have hd : name ∈ defined := Classical.byContradiction hd
        have hl := later defined fun n => ⟨.inl, fun h => h.elim id fun h => by rw [(hin n).1 h]; exact hd⟩
        have hty : (kidTy 0 k.kids = .list ∨ kidTy 1 k.kids = .list) ↔ OneOf k .list := by
          have := Props.TypeWarn.kid_or (k := k) (t := .list) (by simp)
          simpa using this
        split
        · rename_i hc
          have hc : op = b!"+=" ∧ OneOf k .list := ⟨hc.1, hty.1 hc.2⟩
          rw [redefined_iff l (i + 1) defined j, hl]
          refine ⟨.inr, fun h => h.elim (fun ⟨_, n, o, h1, _, h2⟩ => ?_) id⟩
          rw [(uniq h1 hk).2] at h2
          exact absurd hc h2
        · rename_i hc
          have hc : ¬ (op = b!"+=" ∧ OneOf k .list) := fun h => hc ⟨h.1, hty.2 h.2⟩
          rw [List.mem_cons, redefined_iff l (i + 1) defined j, hl]
          exact or_congr ⟨fun h => ⟨h, name, op, hk, hd, hc⟩, fun h => h.1⟩ Iff.rfl

/-- **C95**: a statement of the file is reported as redefining a variable exactly if it assigns to a name to which a statement of the file before it assigns,
unless it is `+=` with a list on one side (as far as types are known, C90). -/
theorem C95_redefined (c : Comments) (l : List Expr) (hf : ∀ c' l', ¬ Props.Bzlenv.Inside (.file c l) (.file c' l')) :
    ∃ root, detect (.file c l) = [root] ∧ root.kids.map TNode.expr = l ∧
      ∀ j, j ∈ redefined (.file c l) ↔ ∃ k s name op, root.kids[j]? = some k ∧ l[j]? = some s ∧ Assigns s name op ∧
        (∃ m < j, ∃ s' op', l[m]? = some s' ∧ Assigns s' name op') ∧ ¬ (op = b!"+=" ∧ OneOf k .list) := by
  obtain ⟨b, kids, hd, hk, _, _⟩ := Props.Types.detect_file c l hf
  refine ⟨_, hd, hk, fun j => ?_⟩
  have get : ∀ m : Nat, l[m]? = (kids[m]?).map TNode.expr := fun m => by rw [← hk, List.getElem?_map]
  unfold redefined
  rw [hd]
  show j ∈ redefinedLoop 0 [] kids ↔ _
  rw [redefined_iff]
  constructor
  · rintro ⟨m, k, name, op, h1, h2, h3, h4, h5⟩
    have : m = j := by omega
    subst this
    refine ⟨k, k.expr, name, op, h2, by rw [get, h2]; rfl, h3, ?_, h5⟩
    rcases h4 with h4 | ⟨n, hn, k', op', h6, h7⟩
    · cases h4
    · exact ⟨n, hn, k'.expr, op', by rw [get, h6]; rfl, h7⟩
  · rintro ⟨k, s, name, op, h1, h2, h3, ⟨m, hm, s', op', h4, h5⟩, h6⟩
    have h1 : kids[j]? = some k := h1
    rw [get, h1] at h2
    cases h2
    rw [get] at h4
    obtain ⟨k', h7, rfl⟩ := Option.map_eq_some_iff.1 h4
    exact ⟨j, k, name, op, by omega, h1, h3, .inr ⟨m, hm, k', op', h7, h5⟩, h6⟩

/-! ### Depsets in loops -/

/-- the lists of statements of a node, numbered -/
def Kids (v : Expr) (k : Nat) (l : List Expr) : Prop :=
  Sub v k l ∨ (k = 0 ∧ ((∃ c, v = .file c l) ∨ ∃ c p n ps cp fc fm t, v = .defS c p n ps l cp fc fm t))

theorem nodeAt_kids {v s x : Expr} {k j : Nat} {l : List Expr} {d : Path} (h : Kids v k l) (hj : l[j]? = some s) (hd : NodeAt s d x) : NodeAt v (k :: j :: d) x := by
  rcases h with h | ⟨rfl, ⟨c, rfl⟩ | ⟨c, p, n, ps, cp, fc, fm, t, rfl⟩⟩
  · exact .sub _ _ _ _ _ _ _ h hj hd
  · exact .file _ _ _ _ _ _ hj hd
  · exact .defS _ _ _ _ _ _ _ _ _ _ _ _ _ hj hd

theorem nodeAt_inv {v x : Expr} {d : Path} (h : NodeAt v d x) : (d = [] ∧ x = v) ∨ ∃ k l j s d', Kids v k l ∧ l[j]? = some s ∧ d = k :: j :: d' ∧ NodeAt s d' x := by
  cases h with
  | self => exact .inl ⟨rfl, rfl⟩
  | file c l j s d x hj hd => exact .inr ⟨0, l, j, s, d, .inr ⟨rfl, .inl ⟨c, rfl⟩⟩, hj, rfl, hd⟩
  | defS c p n ps l cp fc fm t j s d x hj hd => exact .inr ⟨0, l, j, s, d, .inr ⟨rfl, .inr ⟨c, p, n, ps, cp, fc, fm, t, rfl⟩⟩, hj, rfl, hd⟩
  | sub _ k l j s d x hs hj hd => exact .inr ⟨k, l, j, s, d, .inl hs, hj, rfl, hd⟩

theorem mem_list {stop : List Expr → Expr → Bool} {stack st : List Expr} {x : Expr} : ∀ (l : List Expr) (i : Nat) (q : Path),
    ((q, st, x) ∈ walkStL stop stack i l ↔ ∃ j s d, l[j]? = some s ∧ q = (i + j) :: d ∧ (d, st, x) ∈ walkSt stop stack s)
  | [], i, q => by simp [walkStL]
  | s :: l, i, q => by
    rw [walkStL, List.mem_append, mem_list l (i + 1) q, List.mem_map]
    constructor
    · rintro (⟨⟨d, st', x'⟩, hy, e⟩ | ⟨j, s', d, h1, h2, h3⟩)
      · cases e; exact ⟨0, s, d, rfl, rfl, hy⟩
      · exact ⟨j + 1, s', d, by simpa using h1, by rw [h2]; congr 1; omega, h3⟩
    · rintro ⟨j, s', d, h1, h2, h3⟩
      cases j with
      | zero => simp at h1; subst h1; exact .inl ⟨(d, st, x), h3, by rw [h2]; rfl⟩
      | succ j => exact .inr ⟨j, s', d, by simpa using h1, by rw [h2]; congr 1; omega, h3⟩

theorem mem_walk {stack st : List Expr} {v x : Expr} {d : Path} : (d, st, x) ∈ walkSt (fun _ _ => false) stack v ↔
    (v ≠ .nil ∧ d = [] ∧ st = stack ∧ x = v) ∨
      ∃ k l j s d', Kids v k l ∧ l[j]? = some s ∧ d = k :: j :: d' ∧ (d', st, x) ∈ walkSt (fun _ _ => false) (stack ++ [v]) s := by
  have mem : ∀ (k : Nat) (l : List Expr), (d, st, x) ∈ (walkStL (fun _ _ => false) (stack ++ [v]) 0 l).map (fun y => (k :: y.1, y.2)) ↔
      ∃ j s d', l[j]? = some s ∧ d = k :: j :: d' ∧ (d', st, x) ∈ walkSt (fun _ _ => false) (stack ++ [v]) s := by
    intro k l
    rw [List.mem_map]
    constructor
    · rintro ⟨⟨q, st', x'⟩, hy, e⟩
      cases e
      obtain ⟨j, s, d', h1, h2, h3⟩ := (mem_list l 0 q).1 hy
      exact ⟨j, s, d', h1, by rw [h2]; simp, h3⟩
    · rintro ⟨j, s, d', h1, rfl, h3⟩
      exact ⟨(j :: d', st, x), (mem_list l 0 _).2 ⟨j, s, d', h1, by simp, h3⟩, rfl⟩
  constructor
  · intro h
    unfold walkSt at h
    split at h
    · cases h
    · simp only [List.mem_cons, Bool.false_eq_true, if_false] at h
      rcases h with h | h
      · cases h; exact .inl ⟨by simp, rfl, rfl, rfl⟩
      · obtain ⟨j, s, d', h⟩ := (mem 0 _).1 h
        exact .inr ⟨0, _, j, s, d', .inr ⟨rfl, .inl ⟨_, rfl⟩⟩, h⟩
    · simp only [List.mem_cons, Bool.false_eq_true, if_false] at h
      rcases h with h | h
      · cases h; exact .inl ⟨by simp, rfl, rfl, rfl⟩
      · obtain ⟨j, s, d', h⟩ := (mem 0 _).1 h
        exact .inr ⟨0, _, j, s, d', .inr ⟨rfl, .inr ⟨_, _, _, _, _, _, _, _, rfl⟩⟩, h⟩
    · simp only [List.mem_cons, Bool.false_eq_true, if_false, List.mem_append] at h
      rcases h with h | h | h
      · cases h; exact .inl ⟨by simp, rfl, rfl, rfl⟩
      · obtain ⟨j, s, d', h⟩ := (mem 0 _).1 h
        exact .inr ⟨0, _, j, s, d', .inl (.ifTrue _ _ _ _ _ _), h⟩
      · obtain ⟨j, s, d', h⟩ := (mem 1 _).1 h
        exact .inr ⟨1, _, j, s, d', .inl (.ifFalse _ _ _ _ _ _), h⟩
    · simp only [List.mem_cons, Bool.false_eq_true, if_false] at h
      rcases h with h | h
      · cases h; exact .inl ⟨by simp, rfl, rfl, rfl⟩
      · obtain ⟨j, s, d', h⟩ := (mem 0 _).1 h
        exact .inr ⟨0, _, j, s, d', .inl (.forS _ _ _ _ _), h⟩
    · rename_i h0 _ _ _ _
      simp only [List.mem_singleton] at h
      cases h
      exact .inl ⟨h0, rfl, rfl, rfl⟩
  · rintro (⟨h0, rfl, rfl, rfl⟩ | ⟨k, l, j, s, d', h1, h2⟩)
    · unfold walkSt
      split
      · exact absurd rfl h0
      all_goals simp
    · have hm : ∀ k' l', k' = k → l' = l → (d, st, x) ∈ (walkStL (fun _ _ => false) (stack ++ [v]) 0 l').map (fun y => (k' :: y.1, y.2)) := by
        rintro _ _ rfl rfl; exact (mem _ _).2 ⟨j, s, d', h2⟩
      rcases h1 with h1 | ⟨rfl, ⟨c, rfl⟩ | ⟨c, p, n, ps, cp, fc, fm, t, rfl⟩⟩
      · cases h1 with
        | ifTrue =>
          unfold walkSt
          simp only [Bool.false_eq_true, if_false]
          exact List.mem_cons_of_mem _ (List.mem_append.2 (.inl (hm _ _ rfl rfl)))
        | ifFalse =>
          unfold walkSt
          simp only [Bool.false_eq_true, if_false]
          exact List.mem_cons_of_mem _ (List.mem_append.2 (.inr (hm _ _ rfl rfl)))
        | forS =>
          unfold walkSt
          simp only [Bool.false_eq_true, if_false]
          exact List.mem_cons_of_mem _ (hm _ _ rfl rfl)
      · unfold walkSt
        simp only [Bool.false_eq_true, if_false]
        exact List.mem_cons_of_mem _ (hm _ _ rfl rfl)
      · unfold walkSt
        simp only [Bool.false_eq_true, if_false]
        exact List.mem_cons_of_mem _ (hm _ _ rfl rfl)

/-- the stack of a visited node: what was there before, and the nodes around it -/
theorem stack_iff : ∀ (n : Nat) (d : Path), d.length ≤ n → ∀ (stack st : List Expr) (v x : Expr), (d, st, x) ∈ walkSt (fun _ _ => false) stack v →
    ∀ y, y ∈ st ↔ y ∈ stack ∨ ∃ d1 d2, d = d1 ++ d2 ∧ d2 ≠ [] ∧ NodeAt v d1 y ∧ NodeAt y d2 x := by
  intro n
  induction n with
  | zero =>
    intro d hn stack st v x h y
    have : d = [] := List.length_eq_zero_iff.1 (by omega)
    subst this
    rcases mem_walk.1 h with ⟨_, _, rfl, rfl⟩ | ⟨k, l, j, s, d', _, _, h, _⟩
    · refine ⟨.inl, fun h => h.elim id ?_⟩
      rintro ⟨d1, d2, h1, h2, _⟩
      simp at h1
      exact absurd h1.2 h2
    · cases h
  | succ n ih =>
    intro d hn stack st v x h y
    rcases mem_walk.1 h with ⟨_, rfl, rfl, rfl⟩ | ⟨k, l, j, s, d', hk, hj, rfl, hd⟩
    · refine ⟨.inl, fun h => h.elim id ?_⟩
      rintro ⟨d1, d2, h1, h2, _⟩
      simp at h1
      exact absurd h1.2 h2
    · have hx : x ≠ .nil := by
        rintro rfl
        have : ∀ m (d : Path), d.length ≤ m → ∀ st stack v, (d, st, Expr.nil) ∉ walkSt (fun _ _ => false) stack v := by
          intro m
          induction m with
          | zero =>
            intro d hd st stack v h
            rcases mem_walk.1 h with ⟨h0, _, _, h⟩ | ⟨_, _, _, _, _, _, _, h, _⟩
            · exact h0 h.symm
            · subst h; simp at hd
          | succ m ihm =>
            intro d hd st stack v h
            rcases mem_walk.1 h with ⟨h0, _, _, h⟩ | ⟨_, _, _, _, d', _, _, h, h'⟩
            · exact h0 h.symm
            · subst h; exact ihm d' (by simp at hd; omega) _ _ _ h'
        exact this _ _ (Nat.le_refl _) _ _ _ h
      have hin := ih d' (by simp at hn; omega) (stack ++ [v]) st s x hd y
      rw [hin, List.mem_append, List.mem_singleton]
      constructor
      · rintro ((h | rfl) | ⟨d1, d2, rfl, h2, h3, h4⟩)
        · exact .inl h
        · refine .inr ⟨[], k :: j :: d', rfl, by simp, .self _, ?_⟩
          exact (walkSt_node hx _ _ (Nat.le_refl _) stack y).1 ⟨st, h⟩
        · exact .inr ⟨k :: j :: d1, d2, rfl, h2, nodeAt_kids hk hj h3, h4⟩
      · rintro (h | ⟨d1, d2, h1, h2, h3, h4⟩)
        · exact .inl (.inl h)
        · rcases nodeAt_inv h3 with ⟨rfl, rfl⟩ | ⟨k', l', j', s', d1', hk', hj', rfl, hd1⟩
          · exact .inl (.inr rfl)
          · simp at h1
            obtain ⟨rfl, rfl, rfl⟩ := h1
            have hll : l' = l := by
              rcases hk with hk | ⟨rfl, hk⟩
              · rcases hk' with hk' | ⟨rfl, ⟨c, rfl⟩ | ⟨c, p, n, ps, cp, fc, fm, t, rfl⟩⟩
                · cases hk <;> cases hk' <;> rfl
                · cases hk
                · cases hk
              · rcases hk with ⟨c, rfl⟩ | ⟨c, p, n, ps, cp, fc, fm, t, rfl⟩
                · rcases hk' with hk' | ⟨_, ⟨c, h⟩ | ⟨c, p, n, ps, cp, fc, fm, t, h⟩⟩
                  · cases hk'
                  · cases h; rfl
                  · cases h
                · rcases hk' with hk' | ⟨_, ⟨c, h⟩ | ⟨c, p, n, ps, cp, fc, fm, t, h⟩⟩
                  · cases hk'
                  · cases h
                  · cases h; rfl
            subst hll
            rw [hj] at hj'
            cases hj'
            exact .inr ⟨d1', d2, rfl, h2, hd1, h4⟩

/-- the statement `x = depset(..., transitive = [..., x, ...])` (the first `transitive`) -/
def Nests (e : Expr) : Prop :=
  ∃ c i p op lb c' g p' args t a b x kw q r c2 p2 l t2 m, e = .assign c (.ident i) p op lb (.call c' (.ident g) p' args t a b) ∧ g.name = b!"depset" ∧
    ApiWarn.First b!"transitive" args q kw (.list c2 p2 l t2 m) r ∧ Expr.ident x ∈ l ∧ x.name = i.name

theorem nests_iff (e : Expr) : nests e = true ↔ Nests e := by
  have hname : ∀ (n : Bytes) (l : List Expr), l.any (isName n) = true ↔ ∃ x, Expr.ident x ∈ l ∧ x.name = n := by
    intro n l
    rw [List.any_eq_true]
    constructor
    · rintro ⟨y, hy, h⟩
      unfold isName at h
      split at h
      · exact ⟨_, hy, by simpa using h⟩
      · cases h
    · rintro ⟨x, hx, h⟩
      exact ⟨_, hx, by simpa [isName] using h⟩
  constructor
  · intro h
    unfold nests at h
    split at h
    · rename_i c i p op lb c' g p' args t a b
      split at h
      · rename_i hg
        split at h
        · rename_i n q hq
          split at h
          · rename_i c2 p2 l t2 m hl
            obtain ⟨x, hx, hn⟩ := (hname _ _).1 h
            obtain ⟨qa, qb, hf, _, _⟩ := Props.ApiWarn.getParam_some hq
            rw [hl] at hf
            exact ⟨c, i, p, op, lb, c', g, p', args, t, a, b, x, _, qa, qb, c2, p2, l, t2, m, rfl, hg, hf, hx, hn⟩
          · cases h
        · cases h
      · cases h
    · cases h
  · rintro ⟨c, i, p, op, lb, c', g, p', args, t, a, b, x, kw, q, r, c2, p2, l, t2, m, rfl, hg, hf, hx, hn⟩
    obtain ⟨pq, h1, h2, h3, h4⟩ := Props.ApiWarn.getParam_first hf
    simp only [nests, hg, h1, h3, if_true]
    exact (hname _ _).2 ⟨x, hx, hn⟩

/-- **C95**: a statement is reported as nesting depsets exactly if it is of the form `x = depset(..., transitive = [..., x, ...])` and somewhere inside a
`for` loop of the file. -/
theorem C95_nested_depsets (f : Expr) (d : Path) : d ∈ nestedDepsets f ↔
    ∃ d1 d2 c p v x body e, d = d1 ++ d2 ∧ d2 ≠ [] ∧ NodeAt f d1 (.forS c p v x body) ∧ NodeAt (.forS c p v x body) d2 e ∧ Nests e := by
  have hfor : ∀ st : List Expr, st.any isFor = true ↔ ∃ c p v x body, Expr.forS c p v x body ∈ st := by
    intro st
    rw [List.any_eq_true]
    constructor
    · rintro ⟨y, hy, h⟩
      unfold isFor at h
      split at h
      · exact ⟨_, _, _, _, _, hy⟩
      · cases h
    · rintro ⟨c, p, v, x, body, h⟩
      exact ⟨_, h, rfl⟩
  have hcomp : ∀ {v y x : Expr} {d1 d2 : Path}, NodeAt v d1 y → NodeAt y d2 x → NodeAt v (d1 ++ d2) x := by
    intro v y x d1 d2 h1 h2
    induction h1 with
    | self => exact h2
    | file _ _ _ _ _ _ hj _ ih => exact .file _ _ _ _ _ _ hj (ih h2)
    | defS _ _ _ _ _ _ _ _ _ _ _ _ _ hj _ ih => exact .defS _ _ _ _ _ _ _ _ _ _ _ _ _ hj (ih h2)
    | sub _ _ _ _ _ _ _ hs hj _ ih => exact .sub _ _ _ _ _ _ _ hs hj (ih h2)
  unfold nestedDepsets
  rw [List.mem_flatMap]
  constructor
  · rintro ⟨⟨q, st, e⟩, hv, h⟩
    split at h
    · rename_i hc
      rw [List.mem_singleton] at h
      subst h
      rw [Bool.and_eq_true] at hc
      obtain ⟨c, p, v, x, body, hm⟩ := (hfor st).1 hc.1
      rcases (stack_iff _ _ (Nat.le_refl _) _ _ _ _ hv _).1 hm with h | ⟨d1, d2, h1, h2, h3, h4⟩
      · cases h
      · exact ⟨d1, d2, c, p, v, x, body, e, h1, h2, h3, h4, (nests_iff e).1 hc.2⟩
    · cases h
  · rintro ⟨d1, d2, c, p, v, x, body, e, rfl, h2, h3, h4, h5⟩
    have he : e ≠ .nil := by
      obtain ⟨_, _, _, _, _, _, _, _, _, _, _, _, _, _, _, _, _, _, _, _, _, rfl, _⟩ := h5
      simp
    obtain ⟨st, hv⟩ := (walkSt_node he _ _ (Nat.le_refl _) [] f).2 (hcomp h3 h4)
    refine ⟨_, hv, ?_⟩
    have hm := (stack_iff _ _ (Nat.le_refl _) _ _ _ _ hv _).2 (.inr ⟨d1, d2, rfl, h2, h3, h4⟩)
    dsimp only
    rw [(hfor st).2 ⟨_, _, _, _, _, hm⟩, (nests_iff e).2 h5]
    simp

/-! ### Deprecated functions -/

/-- The function is deprecated: a line of its docstring is the heading `Deprecated:`. -/
def Deprecated (body : List Expr) : Prop := ∃ d ts, Doc body d ∧ DocLines d ts ∧ ∃ x ∈ ts, Heading (d.start.lineRune - 1) b!"Deprecated:" x

/-- the last of the symbols with this name -/
def LastNamed (symbols : List IdentN) (name : Bytes) (i : IdentN) : Prop := ∃ a b, symbols = a ++ i :: b ∧ i.name = name ∧ ∀ j ∈ b, j.name ≠ name

theorem lastNamed_iff (name : Bytes) : ∀ (l : List IdentN) (i : IdentN), lastNamed name l = some i ↔ LastNamed l name i
  | [], i => by simp [lastNamed, LastNamed]
  | x :: l, i => by
    have none : lastNamed name l = none ↔ ∀ j ∈ l, j.name ≠ name := by
      clear lastNamed_iff
      induction l with
      | nil => simp [lastNamed]
      | cons y l ih =>
        unfold lastNamed
        cases h : lastNamed name l with
        | some z =>
          rw [h] at ih
          simp at ih ⊢
          exact fun _ => ih
        | none =>
          rw [h] at ih
          simp at ih ⊢
          exact fun _ => ih
    unfold lastNamed
    cases h : lastNamed name l with
    | some z =>
      obtain ⟨a, b, h1, h2, h3⟩ := (lastNamed_iff name l z).1 h
      constructor
      · intro he; cases he; exact ⟨x :: a, b, by rw [h1]; rfl, h2, h3⟩
      · rintro ⟨a', b', g1, g2, g3⟩
        cases a' with
        | nil => simp at g1; exact absurd h2 (g3 z (by rw [← g1.2, h1]; simp))
        | cons y a' =>
          simp at g1
          have := (lastNamed_iff name l i).2 ⟨a', b', g1.2, g2, g3⟩
          rw [h] at this
          exact this
    | none =>
      have hn := none.1 h
      dsimp only
      split
      · rename_i hx
        constructor
        · intro he; cases he; exact ⟨[], l, rfl, hx, hn⟩
        · rintro ⟨a', b', g1, g2, g3⟩
          cases a' with
          | nil => simp at g1; rw [g1.1]
          | cons y a' => simp at g1; exact absurd g2 (hn i (by rw [g1.2]; simp))
      · rename_i hx
        refine ⟨(fun he => nomatch he), ?_⟩
        rintro ⟨a', b', g1, g2, g3⟩
        cases a' with
        | nil => simp at g1; exact absurd (g1.1 ▸ g2) hx
        | cons y a' => simp at g1; exact absurd g2 (hn i (by rw [g1.2]; simp))

theorem docLines_unique {d : StringN} {ts ts' : List Bytes} (h : DocLines d ts) (h' : DocLines d ts') : ts = ts' :=
  ((Props.DocWarn.docLines_iff d ts).1 h).trans ((Props.DocWarn.docLines_iff d ts').1 h').symm

theorem deprecated_iff (body : List Expr) (d : StringN) (h : Doc body d) : (DocWarn.parseDoc d).deprecated = true ↔ Deprecated body := by
  obtain ⟨ts, h1, _, _, h2⟩ := Props.DocWarn.C86_documented d
  rw [h2]
  constructor
  · intro h3; exact ⟨d, ts, h, h1, h3⟩
  · rintro ⟨d', ts', g1, g2, g3⟩
    have : d' = d := by
      have a := (Props.DocWarn.docOf_iff body d).2 h
      rw [(Props.DocWarn.docOf_iff body d').2 g1] at a
      cases a; rfl
    subst this
    rw [docLines_unique h1 g2]
    exact g3

theorem deprecated1_iff (symbols : List IdentN) (s : Expr) (i : IdentN) (name : Bytes) : deprecated1 symbols s = some (i, name) ↔
    ∃ c p ps body cp fc fm t, s = .defS c p name ps body cp fc fm t ∧ LastNamed symbols name i ∧ Deprecated body := by
  constructor
  · intro h
    unfold deprecated1 at h
    split at h
    · split at h
      · rename_i j d hj hd
        split at h
        · rename_i hdep
          cases h
          exact ⟨_, _, _, _, _, _, _, _, rfl, (lastNamed_iff _ _ _).1 hj, (deprecated_iff _ _ ((Props.DocWarn.docOf_iff _ _).1 hd)).1 hdep⟩
        · cases h
      · cases h
    · cases h
  · rintro ⟨c, p, ps, body, cp, fc, fm, t, rfl, h1, h2⟩
    obtain ⟨d, _, hd, _⟩ := id h2
    simp only [deprecated1, (lastNamed_iff _ _ _).2 h1, (Props.DocWarn.docOf_iff _ _).2 hd, (deprecated_iff _ _ hd).2 h2, if_true]

/-- **C96**: a loaded symbol is reported as a deprecated function exactly if it is the last of its name in a `load` statement of the file, the label of the
module is in the main repository and has a target, the file can be read, and it defines at its top a function of this name whose docstring has a heading
`Deprecated:`. The report has the name and the path of the file. -/
theorem C96_deprecated (reader : Bytes → Bytes → Option (Bytes × List Expr)) (pkg : Bytes) (stmts : List Expr) (i : IdentN) (name path : Bytes) :
    (i, name, path) ∈ deprecatedWarning reader pkg stmts ↔
      ∃ c p m from_ to_ r fc pk t loaded, Expr.load c p m from_ to_ r fc ∈ stmts ∧ Props.Labels.denotes m.value pkg = ([], pk, t) ∧ t ≠ [] ∧
        reader pk t = some (path, loaded) ∧ LastNamed from_ name i ∧
        ∃ c p ps body cp fc fm ty, Expr.defS c p name ps body cp fc fm ty ∈ loaded ∧ Deprecated body := by
  unfold deprecatedWarning
  rw [List.mem_flatMap]
  constructor
  · rintro ⟨s, hs, h⟩
    unfold deprecatedIn at h
    split at h
    · rename_i c p m from_ to_ r fc
      dsimp only at h
      split at h
      · cases h
      · rename_i hl
        split at h
        · cases h
        · rename_i path' loaded hr
          obtain ⟨⟨i', n'⟩, hm, he⟩ := List.mem_map.1 h
          cases he
          obtain ⟨s', hs', hd⟩ := List.mem_filterMap.1 hm
          obtain ⟨c1, p1, ps, body, cp, fc1, fm, ty, rfl, h1, h2⟩ := (deprecated1_iff _ _ _ _).1 hd
          have h0 : (Labels.parseRelative m.value pkg).repository = [] := Classical.byContradiction fun h => hl (.inl h)
          refine ⟨c, p, m, from_, to_, r, fc, _, _, loaded, hs, ?_, fun h => hl (.inr h), hr, h1, c1, p1, ps, body, cp, fc1, fm, ty, hs', h2⟩
          unfold Props.Labels.denotes
          dsimp only
          rw [h0]
    · cases h
  · rintro ⟨c, p, m, from_, to_, r, fc, pk, t, loaded, hs, hd, ht, hr, h1, c1, p1, ps, body, cp, fc1, fm, ty, hs', h2⟩
    refine ⟨_, hs, ?_⟩
    unfold Props.Labels.denotes at hd
    simp only [Prod.mk.injEq] at hd
    obtain ⟨e1, e2, e3⟩ := hd
    unfold deprecatedIn
    dsimp only
    rw [if_neg (by rw [e1, e3]; simp [ht]), e2, e3, hr]
    exact List.mem_map.2 ⟨(i, name), List.mem_filterMap.2 ⟨_, hs', (deprecated1_iff _ _ _ _).2 ⟨c1, p1, ps, body, cp, fc1, fm, ty, rfl, h1, h2⟩⟩, rfl⟩

/-! ### Cases -/

def name_ (s : Bytes) : Expr := .ident { name := s }
def set_ (x : Bytes) (op : Bytes) (e : Expr) : Expr := .assign {} (name_ x) {} op false e
def str_ (s : Bytes) : Expr := .string { value := s }
def list_ (l : List Expr) : Expr := .list {} {} l {} false
def loop (l : List Expr) : Expr := .forS {} {} (name_ b!"y") (name_ b!"ys") l
def def_ (n : Bytes) (l : List Expr) : Expr := .defS {} {} n [] l {} false false .nil
def compr_ (curly : Bool) : Expr := .compr {} curly {} (name_ b!"z") [] false {}

/-- the second string of the file, the comprehensions in braces or in a function, and a string in a loop are reported; docstrings and list comprehensions at the
top are not -/
theorem C95_no_effect_example : noEffect {} [str_ b!"doc", str_ b!"no", compr_ false, compr_ true, def_ b!"f" [.commentBlock {} {}, str_ b!"doc", compr_ false,
    loop [str_ b!"no", .call {} (name_ b!"g") {} [] {} false false], .branch {} b!"pass" {}]] =
    [([0, 1], .string), ([0, 3], .compr), ([0, 4, 0, 2], .compr), ([0, 4, 0, 3, 0, 0], .string)] := by decide +kernel

/-- the second assignment is reported, the third one not -/
theorem C95_redefined_example : redefined (.file {} [set_ b!"x" b!"=" (list_ []), set_ b!"x" b!"=" (name_ b!"y"), set_ b!"x" b!"+=" (list_ [])]) = [1] := by decide +kernel

theorem C95_nested_example :
    let e := set_ b!"x" b!"=" (.call {} (name_ b!"depset") {} [set_ b!"transitive" b!"=" (list_ [name_ b!"x"])] {} false false)
    nestedDepsets (.file {} [e, loop [.ifS {} {} (name_ b!"c") [e] {} []]]) = [[0, 1, 0, 0, 0, 0]] := by decide +kernel

theorem C96_example :
    deprecatedWarning (fun p t => if p = b!"a" ∧ t = b!"b.bzl" then
        some (b!"//a/b.bzl", [.defS {} {} b!"f" [] [.string { value := b!"f\n\nDeprecated:\n no", start := ⟨1, 1, 0⟩ }] {} false false .nil,
          def_ b!"g" [str_ b!"g"]]) else none) b!"a"
      [.load {} {} { value := b!":b.bzl" } [{ name := b!"f" }, { name := b!"g" }] [{ name := b!"f" }, { name := b!"g" }] {} false] =
    [({ name := b!"f" }, b!"f", b!"//a/b.bzl")] := by decide +kernel

end Verif.Props.StmtWarn
