import Verif.Model.Bzlenv
import Verif.Proofs.Walk
/-
C56: names resolve to the innermost enclosing scope that binds them, the environment is restored after every node, its stack is the list of ancestors, and
identifiers of bindings are unique.
-/
namespace Verif.Props.Bzlenv
open Verif Verif.Syntax Verif.Walk Verif.Bzlenv

/-! ## Specification -/

/-- assigning to `e` binds the name `n` -/
inductive LVal : Expr → Bytes → Prop
  | ident (i : IdentN) : LVal (.ident i) i.name
  | tuple (c nb s l e fc fm x n) : x ∈ l → LVal x n → LVal (.tuple c nb s l e fc fm) n
  | list (c s l e fm x n) : x ∈ l → LVal x n → LVal (.list c s l e fm) n

/-- running the statement may bind the name in its function, by the given node -/
inductive LocalOf : Expr → Bytes → Expr → Prop
  | assign (c lhs p op lb rhs n) : LVal lhs n → LocalOf (.assign c lhs p op lb rhs) n (.assign c lhs p op lb rhs)
  | forVar (c p v x b n) : LVal v n → LocalOf (.forS c p v x b) n (.forS c p v x b)
  | forBody (c p v x b s n d) : s ∈ b → LocalOf s n d → LocalOf (.forS c p v x b) n d
  | ifTrue (c p cd t e f s n d) : s ∈ t → LocalOf s n d → LocalOf (.ifS c p cd t e f) n d
  | ifFalse (c p cd t e f s n d) : s ∈ f → LocalOf s n d → LocalOf (.ifS c p cd t e f) n d

/-- the parameter has the name: `x`, `x: type`, `x = default`, `*x`, `**x` -/
inductive ParamNamed : Expr → Bytes → Prop
  | ident (i : IdentN) : ParamNamed (.ident i) i.name
  | typed (c i t) : ParamNamed (.typedIdent c i t) i.name
  | default (c lhs p op lb rhs n) : ParamNamed lhs n → ParamNamed (.assign c lhs p op lb rhs) n
  | star (c p op x n) : ParamNamed x n → ParamNamed (.unary c p op x) n

/-- The node opens a scope in which the name is bound, with this kind and definition. -/
inductive Binds : Expr → Bytes → ValueKind → Expr → Prop
  | load (c l c' lp m fr to_ r fc i) : Expr.load c' lp m fr to_ r fc ∈ l → i ∈ to_ → Binds (.file c l) i.name .imported (.ident i)
  | global (c l c' lhs p op lb rhs n) : Expr.assign c' lhs p op lb rhs ∈ l → LVal lhs n → Binds (.file c l) n .global (.assign c' lhs p op lb rhs)
  | function (c l c' p n ps b cp fc fm t) : Expr.defS c' p n ps b cp fc fm t ∈ l → Binds (.file c l) n .function (.defS c' p n ps b cp fc fm t)
  | param (c p n ps b cp fc fm t x m) : x ∈ ps → ParamNamed x m → Binds (.defS c p n ps b cp fc fm t) m .parameter x
  /-- a parameter without a name, such as a bare `*`, binds the empty name -/
  | bare (c p n ps b cp fc fm t x) : x ∈ ps → (∀ m, ¬ ParamNamed x m) → Binds (.defS c p n ps b cp fc fm t) [] .parameter x
  | local_ (c p n ps b cp fc fm t s m d) : s ∈ b → LocalOf s m d → Binds (.defS c p n ps b cp fc fm t) m .local_ d
  | compr (c cu lb b cl fm e c' f v i x n) : Expr.forClause c' f v i x ∈ cl → LVal v n → Binds (.compr c cu lb b cl fm e) n .local_ (.compr c cu lb b cl fm e)

/-- What a name means below the ancestors `stk` (outermost first): a binding of the innermost one that binds it. -/
def Resolved (stk : List Expr) (n : Bytes) : Option NameInfo → Prop
  | none => ∀ w ∈ stk, ∀ k d, ¬ Binds w n k d
  | some i => i.name = n ∧ ∃ a w b, stk = a ++ w :: b ∧ Binds w n i.kind i.definition ∧ ∀ u ∈ b, ∀ k d, ¬ Binds u n k d

/-- each ancestor is the parent of the next one, the last the parent of the node -/
inductive Ancestors (root : Expr) : List Expr → Expr → Prop
  | root : Ancestors root [] root
  | child (stk v x) : Ancestors root stk v → x ∈ slots v → Ancestors root (stk ++ [v]) x

/-- `x` is somewhere below `v` -/
inductive Inside (v : Expr) : Expr → Prop
  | slot (x) : x ∈ slots v → Inside v x
  | deeper (x y) : Inside v x → y ∈ slots x → Inside v y

/-! ## What declarations add -/

/-- `env'` is `env` with declarations added to the current block: those related by `R` -/
def Adds (R : Bytes → ValueKind → Expr → Prop) (env env' : Env) : Prop :=
  ∀ b l, env.blocks = b :: l → ∃ new, env'.blocks = (new ++ b) :: l ∧ env'.stack = env.stack ∧ env'.function = env.function ∧
    (∀ n k d, (∃ i ∈ new, i.name = n ∧ i.kind = k ∧ i.definition = d) ↔ R n k d) ∧
    env'.nextID = env.nextID + new.length ∧ (∀ i ∈ new, env.nextID ≤ i.id ∧ i.id < env'.nextID) ∧ (new.map (·.id)).Nodup

theorem adds_refl (env : Env) : Adds (fun _ _ _ => False) env env := by
  intro b l h
  exact ⟨[], by simpa using h, rfl, rfl, by simp, rfl, by simp, List.nodup_nil⟩

theorem adds_declare (env : Env) (n : Bytes) (k : ValueKind) (d : Expr) : Adds (fun n' k' d' => n' = n ∧ k' = k ∧ d' = d) env (declare env n k d) := by
  intro b l h
  refine ⟨[⟨env.nextID, n, k, d⟩], ?_⟩
  unfold declare
  rw [h]
  refine ⟨rfl, rfl, rfl, ?_, rfl, by simp, by simp⟩
  intro n' k' d'
  simp only [List.mem_singleton, exists_eq_left]
  constructor
  · rintro ⟨rfl, rfl, rfl⟩; exact ⟨rfl, rfl, rfl⟩
  · rintro ⟨rfl, rfl, rfl⟩; exact ⟨rfl, rfl, rfl⟩

theorem adds_trans {R R' : Bytes → ValueKind → Expr → Prop} {a b c : Env} (h : Adds R a b) (h' : Adds R' b c) :
    Adds (fun n k d => R n k d ∨ R' n k d) a c := by
  intro bl l hb
  obtain ⟨new, h1, h2, h3, h4, h5, h6, h7⟩ := h bl l hb
  obtain ⟨new', g1, g2, g3, g4, g5, g6, g7⟩ := h' _ _ h1
  refine ⟨new' ++ new, by rw [g1, List.append_assoc], g2.trans h2, g3.trans h3, ?_, ?_, ?_, ?_⟩
  · intro n k d
    show _ ↔ (R n k d ∨ R' n k d)
    rw [← h4 n k d, ← g4 n k d]
    constructor
    · rintro ⟨i, hi, hr⟩
      rcases List.mem_append.1 hi with hi | hi
      · exact .inr ⟨i, hi, hr⟩
      · exact .inl ⟨i, hi, hr⟩
    · rintro (⟨i, hi, hr⟩ | ⟨i, hi, hr⟩)
      · exact ⟨i, List.mem_append.2 (.inr hi), hr⟩
      · exact ⟨i, List.mem_append.2 (.inl hi), hr⟩
  · rw [g5, h5, List.length_append]; omega
  · intro i hi
    rcases List.mem_append.1 hi with hi | hi
    · have := g6 i hi; omega
    · have := h6 i hi; omega
  · rw [List.map_append, List.nodup_append]
    refine ⟨g7, h7, ?_⟩
    intro x hx y hy hxy
    obtain ⟨i, hi, rfl⟩ := List.mem_map.1 hx
    obtain ⟨j, hj, rfl⟩ := List.mem_map.1 hy
    have := g6 i hi
    have := h6 j hj
    omega

theorem adds_iff {R R' : Bytes → ValueKind → Expr → Prop} {a b : Env} (h : Adds R a b) (hr : ∀ n k d, R n k d ↔ R' n k d) : Adds R' a b := by
  have : R = R' := by funext n k d; exact propext (hr n k d)
  exact this ▸ h

theorem adds_fun {R : Bytes → ValueKind → Expr → Prop} {a b : Env} (h : Adds R a b) (hb : a.blocks ≠ []) : b.blocks ≠ [] ∧ b.function = a.function := by
  obtain ⟨bl, l, e⟩ := List.exists_cons_of_ne_nil hb
  obtain ⟨new, h1, _, h3, _⟩ := h bl l e
  exact ⟨by rw [h1]; simp, h3⟩

mutual
theorem lvalues_mem : ∀ (e : Expr) (n : Bytes), n ∈ lvalues e ↔ LVal e n
  | .ident i, n => by
    simp only [lvalues, List.mem_singleton]
    constructor
    · rintro rfl; exact .ident i
    · intro h; cases h; rfl
  | .tuple c nb s l e fc fm, n => by
    simp only [lvalues]
    rw [lvaluesL_mem l n]
    constructor
    · rintro ⟨x, hx, h⟩; exact .tuple _ _ _ _ _ _ _ x n hx h
    · intro h; cases h with | tuple _ _ _ _ _ _ _ x _ hx h => exact ⟨x, hx, h⟩
  | .list c s l e fm, n => by
    simp only [lvalues]
    rw [lvaluesL_mem l n]
    constructor
    · rintro ⟨x, hx, h⟩; exact .list _ _ _ _ _ x n hx h
    · intro h; cases h with | list _ _ _ _ _ x _ hx h => exact ⟨x, hx, h⟩
  | .nil, n => by simp [lvalues]; nofun
  | .commentBlock .., n => by simp [lvalues]; nofun
  | .typedIdent .., n => by simp [lvalues]; nofun
  | .branch .., n => by simp [lvalues]; nofun
  | .literal .., n => by simp [lvalues]; nofun
  | .string .., n => by simp [lvalues]; nofun
  | .call .., n => by simp [lvalues]; nofun
  | .dot .., n => by simp [lvalues]; nofun
  | .compr .., n => by simp [lvalues]; nofun
  | .forClause .., n => by simp [lvalues]; nofun
  | .ifClause .., n => by simp [lvalues]; nofun
  | .keyValue .., n => by simp [lvalues]; nofun
  | .dict .., n => by simp [lvalues]; nofun
  | .set .., n => by simp [lvalues]; nofun
  | .unary .., n => by simp [lvalues]; nofun
  | .binary .., n => by simp [lvalues]; nofun
  | .assign .., n => by simp [lvalues]; nofun
  | .paren .., n => by simp [lvalues]; nofun
  | .slice .., n => by simp [lvalues]; nofun
  | .index .., n => by simp [lvalues]; nofun
  | .lambda .., n => by simp [lvalues]; nofun
  | .cond .., n => by simp [lvalues]; nofun
  | .load .., n => by simp [lvalues]; nofun
  | .defS .., n => by simp [lvalues]; nofun
  | .returnS .., n => by simp [lvalues]; nofun
  | .forS .., n => by simp [lvalues]; nofun
  | .ifS .., n => by simp [lvalues]; nofun
  | .file .., n => by simp [lvalues]; nofun
theorem lvaluesL_mem : ∀ (l : List Expr) (n : Bytes), n ∈ lvaluesL l ↔ ∃ x ∈ l, LVal x n
  | [], n => by simp [lvaluesL]
  | x :: l, n => by
    simp only [lvaluesL, List.mem_append, List.mem_cons]
    rw [lvalues_mem x n, lvaluesL_mem l n]
    constructor
    · rintro (h | ⟨y, hy, h⟩)
      · exact ⟨x, .inl rfl, h⟩
      · exact ⟨y, .inr hy, h⟩
    · rintro ⟨y, rfl | hy, h⟩
      · exact .inl h
      · exact .inr ⟨y, hy, h⟩
end

theorem adds_declareAll (k : ValueKind) (d : Expr) : ∀ (l : List Bytes) (env : Env), Adds (fun n' k' d' => n' ∈ l ∧ k' = k ∧ d' = d) env (declareAll env k d l) := by
  intro l
  induction l with
  | nil => intro env; exact adds_iff (adds_refl env) (by simp)
  | cons n l ih =>
    intro env
    refine adds_iff (adds_trans (adds_declare env n k d) (ih _)) ?_
    intro n' k' d'
    simp only [List.mem_cons]
    constructor
    · rintro (⟨rfl, h⟩ | ⟨h, h'⟩)
      · exact ⟨.inl rfl, h⟩
      · exact ⟨.inr h, h'⟩
    · rintro ⟨rfl | h, h'⟩
      · exact .inl ⟨rfl, h'⟩
      · exact .inr ⟨h, h'⟩

theorem adds_declareTo : ∀ (l : List IdentN) (env : Env), Adds (fun n k d => ∃ i ∈ l, n = i.name ∧ k = .imported ∧ d = .ident i) env (declareTo env l) := by
  intro l
  induction l with
  | nil => intro env; exact adds_iff (adds_refl env) (by simp)
  | cons i l ih =>
    intro env
    refine adds_iff (adds_trans (adds_declare env i.name .imported (.ident i)) (ih _)) ?_
    intro n k d
    simp

theorem adds_declareParams : ∀ (l : List Expr) (env : Env), Adds (fun n k d => ∃ x ∈ l, n = paramName x ∧ k = .parameter ∧ d = x) env (declareParams env l) := by
  intro l
  induction l with
  | nil => intro env; exact adds_iff (adds_refl env) (by simp)
  | cons i l ih =>
    intro env
    refine adds_iff (adds_trans (adds_declare env (paramName i) .parameter i) (ih _)) ?_
    intro n k d
    simp

/-- what a top-level statement binds -/
def GlobalOf (s : Expr) (n : Bytes) (k : ValueKind) (d : Expr) : Prop := Binds (.file {} [s]) n k d

theorem binds_file {c l n k d} : Binds (.file c l) n k d ↔ ∃ s ∈ l, GlobalOf s n k d := by
  constructor
  · intro h
    cases h with
    | load _ _ c' lp m fr to_ r fc i h hi => exact ⟨_, h, .load _ _ c' lp m fr to_ r fc i (by simp) hi⟩
    | global _ _ c' lhs p op lb rhs _ h hn => exact ⟨_, h, .global _ _ c' lhs p op lb rhs _ (by simp) hn⟩
    | function _ _ c' p _ ps b cp fc fm t h => exact ⟨_, h, .function _ _ c' p _ ps b cp fc fm t (by simp)⟩
  · rintro ⟨s, hs, h⟩
    cases h with
    | load _ _ c' lp m fr to_ r fc i h hi =>
      have := List.mem_singleton.1 h
      subst this
      exact .load _ _ c' lp m fr to_ r fc i hs hi
    | global _ _ c' lhs p op lb rhs _ h hn =>
      have := List.mem_singleton.1 h
      subst this
      exact .global _ _ c' lhs p op lb rhs _ hs hn
    | function _ _ c' p _ ps b cp fc fm t h =>
      have := List.mem_singleton.1 h
      subst this
      exact .function _ _ c' p _ ps b cp fc fm t hs

theorem adds_declareGlobals : ∀ (l : List Expr) (env : Env), env.function = none → env.blocks ≠ [] →
    Adds (fun n k d => ∃ s ∈ l, GlobalOf s n k d) env (declareGlobals env l) := by
  intro l
  induction l with
  | nil => intro env _ _; exact adds_iff (adds_refl env) (by simp)
  | cons s l ih =>
    intro env hf hb
    -- it is enough to know what the first statement adds
    have step : ∀ {R : Bytes → ValueKind → Expr → Prop} {env'}, Adds R env env' → (∀ n k d, R n k d ↔ GlobalOf s n k d) → declareGlobals env (s :: l) = declareGlobals env' l →
        Adds (fun n k d => ∃ x ∈ s :: l, GlobalOf x n k d) env (declareGlobals env (s :: l)) := by
      intro R env' ha hr he
      rw [he]
      have hfb := adds_fun ha hb
      refine adds_iff (adds_trans ha (ih env' (hfb.2.trans hf) hfb.1)) ?_
      intro n k d
      rw [hr]
      simp
    cases s with
    | load c lp m fr to_ r fc =>
      refine step (adds_declareTo to_ env) ?_ (by simp [declareGlobals])
      intro n k d
      constructor
      · rintro ⟨i, hi, rfl, rfl, rfl⟩
        exact .load _ _ c lp m fr to_ r fc i (by simp) hi
      · intro h
        cases h with
        | load _ _ _ _ _ _ _ _ _ i h hi => cases List.mem_singleton.1 h; exact ⟨i, hi, rfl, rfl, rfl⟩
        | global _ _ _ _ _ _ _ _ _ h => cases List.mem_singleton.1 h
        | function _ _ _ _ _ _ _ _ _ _ _ h => cases List.mem_singleton.1 h
    | assign c lhs p op lb rhs =>
      refine step (adds_declareAll (assignKind env) (.assign c lhs p op lb rhs) (lvalues lhs) env) ?_ (by simp [declareGlobals])
      intro n k d
      have hk : assignKind env = .global := by unfold assignKind; rw [hf]; rfl
      rw [hk, lvalues_mem]
      constructor
      · rintro ⟨hn, rfl, rfl⟩
        exact .global _ _ c lhs p op lb rhs _ (by simp) hn
      · intro h
        cases h with
        | load _ _ _ _ _ _ _ _ _ i h hi => cases List.mem_singleton.1 h
        | global _ _ _ _ _ _ _ _ _ h hn => cases List.mem_singleton.1 h; exact ⟨hn, rfl, rfl⟩
        | function _ _ _ _ _ _ _ _ _ _ _ h => cases List.mem_singleton.1 h
    | defS c p n ps b cp fc fm t =>
      refine step (adds_declare env n .function (.defS c p n ps b cp fc fm t)) ?_ (by simp [declareGlobals])
      intro n' k d
      constructor
      · rintro ⟨rfl, rfl, rfl⟩
        exact .function _ _ c p _ ps b cp fc fm t (by simp)
      · intro h
        cases h with
        | load _ _ _ _ _ _ _ _ _ i h hi => cases List.mem_singleton.1 h
        | global _ _ _ _ _ _ _ _ _ h hn => cases List.mem_singleton.1 h
        | function _ _ _ _ _ _ _ _ _ _ _ h => cases List.mem_singleton.1 h; exact ⟨rfl, rfl, rfl⟩
    | _ =>
      refine step (adds_refl env) ?_ (by simp [declareGlobals])
      intro n k d
      constructor
      · nofun
      · intro h
        cases h with
        | load _ _ _ _ _ _ _ _ _ i h hi => cases List.mem_singleton.1 h
        | global _ _ _ _ _ _ _ _ _ h hn => cases List.mem_singleton.1 h
        | function _ _ _ _ _ _ _ _ _ _ _ h => cases List.mem_singleton.1 h

/-- local variables of a function: the environment is inside one -/
def InDef (env : Env) : Prop := env.function ≠ none ∧ env.blocks ≠ []

theorem inDef_adds {R a b} (h : Adds R a b) (ha : InDef a) : InDef b := by
  have := adds_fun h ha.2
  exact ⟨by rw [this.2]; exact ha.1, this.1⟩

mutual
theorem adds_declareLocal : ∀ (s : Expr) (env : Env), InDef env → Adds (fun n k d => k = .local_ ∧ LocalOf s n d) env (declareLocal env s)
  | .assign c lhs p op lb rhs, env, h => by
    simp only [declareLocal]
    have hk : assignKind env = .local_ := by
      unfold assignKind
      cases hf : env.function with
      | none => exact absurd hf h.1
      | some _ => rfl
    rw [hk]
    refine adds_iff (adds_declareAll .local_ _ (lvalues lhs) env) ?_
    intro n k d
    rw [lvalues_mem]
    constructor
    · rintro ⟨hn, rfl, rfl⟩; exact ⟨rfl, .assign _ _ _ _ _ _ _ hn⟩
    · rintro ⟨rfl, hl⟩; cases hl with | assign _ _ _ _ _ _ _ hn => exact ⟨hn, rfl, rfl⟩
  | .ifS c p cd t e f, env, h => by
    simp only [declareLocal]
    have h1 := adds_declareLocals t env h
    have h2 := adds_declareLocals f _ (inDef_adds h1 h)
    refine adds_iff (adds_trans h1 h2) ?_
    intro n k d
    constructor
    · rintro (⟨rfl, s, hs, hl⟩ | ⟨rfl, s, hs, hl⟩)
      · exact ⟨rfl, .ifTrue _ _ _ _ _ _ s n d hs hl⟩
      · exact ⟨rfl, .ifFalse _ _ _ _ _ _ s n d hs hl⟩
    · rintro ⟨rfl, hl⟩
      cases hl with
      | ifTrue _ _ _ _ _ _ s _ _ hs hl => exact .inl ⟨rfl, s, hs, hl⟩
      | ifFalse _ _ _ _ _ _ s _ _ hs hl => exact .inr ⟨rfl, s, hs, hl⟩
  | .forS c p v x b, env, h => by
    simp only [declareLocal]
    have h1 := adds_declareAll .local_ (.forS c p v x b) (lvalues v) env
    have h2 := adds_declareLocals b _ (inDef_adds h1 h)
    refine adds_iff (adds_trans h1 h2) ?_
    intro n k d
    rw [lvalues_mem]
    constructor
    · rintro (⟨hn, rfl, rfl⟩ | ⟨rfl, s, hs, hl⟩)
      · exact ⟨rfl, .forVar _ _ _ _ _ _ hn⟩
      · exact ⟨rfl, .forBody _ _ _ _ _ s n d hs hl⟩
    · rintro ⟨rfl, hl⟩
      cases hl with
      | forVar _ _ _ _ _ _ hn => exact .inl ⟨hn, rfl, rfl⟩
      | forBody _ _ _ _ _ s _ _ hs hl => exact .inr ⟨rfl, s, hs, hl⟩
  | .nil, env, _ => adds_iff (adds_refl env) (fun _ _ _ => ⟨nofun, fun h => nomatch h.2⟩)
  | .commentBlock .., env, _ => adds_iff (adds_refl env) (fun _ _ _ => ⟨nofun, fun h => nomatch h.2⟩)
  | .ident .., env, _ => adds_iff (adds_refl env) (fun _ _ _ => ⟨nofun, fun h => nomatch h.2⟩)
  | .typedIdent .., env, _ => adds_iff (adds_refl env) (fun _ _ _ => ⟨nofun, fun h => nomatch h.2⟩)
  | .branch .., env, _ => adds_iff (adds_refl env) (fun _ _ _ => ⟨nofun, fun h => nomatch h.2⟩)
  | .literal .., env, _ => adds_iff (adds_refl env) (fun _ _ _ => ⟨nofun, fun h => nomatch h.2⟩)
  | .string .., env, _ => adds_iff (adds_refl env) (fun _ _ _ => ⟨nofun, fun h => nomatch h.2⟩)
  | .call .., env, _ => adds_iff (adds_refl env) (fun _ _ _ => ⟨nofun, fun h => nomatch h.2⟩)
  | .dot .., env, _ => adds_iff (adds_refl env) (fun _ _ _ => ⟨nofun, fun h => nomatch h.2⟩)
  | .compr .., env, _ => adds_iff (adds_refl env) (fun _ _ _ => ⟨nofun, fun h => nomatch h.2⟩)
  | .forClause .., env, _ => adds_iff (adds_refl env) (fun _ _ _ => ⟨nofun, fun h => nomatch h.2⟩)
  | .ifClause .., env, _ => adds_iff (adds_refl env) (fun _ _ _ => ⟨nofun, fun h => nomatch h.2⟩)
  | .keyValue .., env, _ => adds_iff (adds_refl env) (fun _ _ _ => ⟨nofun, fun h => nomatch h.2⟩)
  | .dict .., env, _ => adds_iff (adds_refl env) (fun _ _ _ => ⟨nofun, fun h => nomatch h.2⟩)
  | .list .., env, _ => adds_iff (adds_refl env) (fun _ _ _ => ⟨nofun, fun h => nomatch h.2⟩)
  | .set .., env, _ => adds_iff (adds_refl env) (fun _ _ _ => ⟨nofun, fun h => nomatch h.2⟩)
  | .tuple .., env, _ => adds_iff (adds_refl env) (fun _ _ _ => ⟨nofun, fun h => nomatch h.2⟩)
  | .unary .., env, _ => adds_iff (adds_refl env) (fun _ _ _ => ⟨nofun, fun h => nomatch h.2⟩)
  | .binary .., env, _ => adds_iff (adds_refl env) (fun _ _ _ => ⟨nofun, fun h => nomatch h.2⟩)
  | .paren .., env, _ => adds_iff (adds_refl env) (fun _ _ _ => ⟨nofun, fun h => nomatch h.2⟩)
  | .slice .., env, _ => adds_iff (adds_refl env) (fun _ _ _ => ⟨nofun, fun h => nomatch h.2⟩)
  | .index .., env, _ => adds_iff (adds_refl env) (fun _ _ _ => ⟨nofun, fun h => nomatch h.2⟩)
  | .lambda .., env, _ => adds_iff (adds_refl env) (fun _ _ _ => ⟨nofun, fun h => nomatch h.2⟩)
  | .cond .., env, _ => adds_iff (adds_refl env) (fun _ _ _ => ⟨nofun, fun h => nomatch h.2⟩)
  | .load .., env, _ => adds_iff (adds_refl env) (fun _ _ _ => ⟨nofun, fun h => nomatch h.2⟩)
  | .defS .., env, _ => adds_iff (adds_refl env) (fun _ _ _ => ⟨nofun, fun h => nomatch h.2⟩)
  | .returnS .., env, _ => adds_iff (adds_refl env) (fun _ _ _ => ⟨nofun, fun h => nomatch h.2⟩)
  | .file .., env, _ => adds_iff (adds_refl env) (fun _ _ _ => ⟨nofun, fun h => nomatch h.2⟩)
theorem adds_declareLocals : ∀ (l : List Expr) (env : Env), InDef env → Adds (fun n k d => k = .local_ ∧ ∃ s ∈ l, LocalOf s n d) env (declareLocals env l)
  | [], env, _ => by
    simp only [declareLocals]
    exact adds_iff (adds_refl env) (by simp)
  | s :: l, env, h => by
    simp only [declareLocals]
    have h1 := adds_declareLocal s env h
    refine adds_iff (adds_trans h1 (adds_declareLocals l _ (inDef_adds h1 h))) ?_
    intro n k d
    simp only [List.mem_cons]
    constructor
    · rintro (⟨rfl, hl⟩ | ⟨rfl, x, hx, hl⟩)
      · exact ⟨rfl, s, .inl rfl, hl⟩
      · exact ⟨rfl, x, .inr hx, hl⟩
    · rintro ⟨rfl, x, rfl | hx, hl⟩
      · exact .inl ⟨rfl, hl⟩
      · exact .inr ⟨rfl, x, hx, hl⟩
end

theorem adds_declareClauses (node : Expr) : ∀ (l : List Expr) (env : Env),
    Adds (fun n k d => k = .local_ ∧ d = node ∧ ∃ c f v i x, Expr.forClause c f v i x ∈ l ∧ LVal v n) env (declareClauses env node l) := by
  intro l
  induction l with
  | nil => intro env; exact adds_iff (adds_refl env) (by simp)
  | cons s l ih =>
    intro env
    cases s with
    | forClause c f v i x =>
      refine adds_iff (adds_trans (adds_declareAll .local_ node (lvalues v) env) (ih _)) ?_
      intro n k d
      rw [lvalues_mem]
      constructor
      · rintro (⟨hn, rfl, rfl⟩ | ⟨rfl, rfl, c', f', v', i', x', hm, hn⟩)
        · exact ⟨rfl, rfl, c, f, v, i, x, by simp, hn⟩
        · exact ⟨rfl, rfl, c', f', v', i', x', by simp [hm], hn⟩
      · rintro ⟨rfl, rfl, c', f', v', i', x', hm, hn⟩
        rcases List.mem_cons.1 hm with e | hm
        · cases e; exact .inl ⟨hn, rfl, rfl⟩
        · exact .inr ⟨rfl, rfl, c', f', v', i', x', hm, hn⟩
    | _ =>
      refine adds_iff (ih env) ?_
      intro n k d
      simp

/-! ## Scopes -/

theorem paramName_iff (x : Expr) : ∀ n, n = paramName x ↔ (ParamNamed x n ∨ (n = [] ∧ ∀ m, ¬ ParamNamed x m)) := by
  fun_induction paramName x with
  | case1 i =>
    intro n
    constructor
    · rintro rfl; exact .inl (.ident i)
    · rintro (h | ⟨_, h⟩)
      · cases h; rfl
      · exact absurd (.ident i) (h _)
  | case2 c i t =>
    intro n
    constructor
    · rintro rfl; exact .inl (.typed c i t)
    · rintro (h | ⟨_, h⟩)
      · cases h; rfl
      · exact absurd (.typed c i t) (h _)
  | case3 c lhs p op lb rhs ih =>
    intro n
    rw [ih n]
    constructor
    · rintro (h | ⟨h, h'⟩)
      · exact .inl (.default _ _ _ _ _ _ _ h)
      · exact .inr ⟨h, fun m hm => by cases hm with | default _ _ _ _ _ _ _ hm => exact h' m hm⟩
    · rintro (h | ⟨h, h'⟩)
      · cases h with | default _ _ _ _ _ _ _ h => exact .inl h
      · exact .inr ⟨h, fun m hm => h' m (.default _ _ _ _ _ _ _ hm)⟩
  | case4 c p op x ih =>
    intro n
    rw [ih n]
    constructor
    · rintro (h | ⟨h, h'⟩)
      · exact .inl (.star _ _ _ _ _ h)
      · exact .inr ⟨h, fun m hm => by cases hm with | star _ _ _ _ _ hm => exact h' m hm⟩
    · rintro (h | ⟨h, h'⟩)
      · cases h with | star _ _ _ _ _ h => exact .inl h
      · exact .inr ⟨h, fun m hm => h' m (.star _ _ _ _ _ hm)⟩
  | case5 x h1 h2 h3 h4 =>
    intro n
    constructor
    · rintro rfl
      refine .inr ⟨rfl, ?_⟩
      intro m hm
      cases hm with
      | ident i => exact h1 _ rfl
      | typed c i t => exact h2 _ _ _ rfl
      | default c lhs p op lb rhs _ _ => exact h3 _ _ _ _ _ _ rfl
      | star c p op x _ _ => exact h4 _ _ _ _ rfl
    · rintro (h | ⟨h, _⟩)
      · cases h with
        | ident i => exact absurd rfl (h1 _)
        | typed c i t => exact absurd rfl (h2 _ _ _)
        | default c lhs p op lb rhs _ _ => exact absurd rfl (h3 _ _ _ _ _ _)
        | star c p op x _ _ => exact absurd rfl (h4 _ _ _ _)
      · exact h

theorem binds_def {c p n ps b cp fc fm t m k d} : Binds (.defS c p n ps b cp fc fm t) m k d ↔
    (∃ x ∈ ps, m = paramName x ∧ k = .parameter ∧ d = x) ∨ (k = .local_ ∧ ∃ s ∈ b, LocalOf s m d) := by
  constructor
  · intro h
    cases h with
    | param _ _ _ _ _ _ _ _ _ _ _ hx hm => exact .inl ⟨d, hx, (paramName_iff d m).2 (.inl hm), rfl, rfl⟩
    | bare _ _ _ _ _ _ _ _ _ _ hx hm => exact .inl ⟨d, hx, (paramName_iff d []).2 (.inr ⟨rfl, hm⟩), rfl, rfl⟩
    | local_ _ _ _ _ _ _ _ _ _ s _ _ hs hl => exact .inr ⟨rfl, s, hs, hl⟩
  · rintro (⟨x, hx, hm, rfl, rfl⟩ | ⟨rfl, s, hs, hl⟩)
    · rcases (paramName_iff d m).1 hm with h | ⟨rfl, h⟩
      · exact .param _ _ _ _ _ _ _ _ _ d m hx h
      · exact .bare _ _ _ _ _ _ _ _ _ d hx h
    · exact .local_ _ _ _ _ _ _ _ _ _ s m d hs hl

theorem lookupB_some {n : Bytes} {b : Block} {i : NameInfo} (h : lookupB n b = some i) : i ∈ b ∧ i.name = n := by
  induction b with
  | nil => cases h
  | cons j b ih =>
    unfold lookupB at h
    by_cases hj : j.name = n
    · rw [if_pos hj] at h; cases h; exact ⟨List.mem_cons_self .., hj⟩
    · rw [if_neg hj] at h
      have := ih h
      exact ⟨List.mem_cons_of_mem _ this.1, this.2⟩

theorem lookupB_none {n : Bytes} {b : Block} (h : lookupB n b = none) : ∀ i ∈ b, i.name ≠ n := by
  induction b with
  | nil => intro i hi; cases hi
  | cons j b ih =>
    unfold lookupB at h
    by_cases hj : j.name = n
    · rw [if_pos hj] at h; cases h
    · rw [if_neg hj] at h
      intro i hi
      rcases List.mem_cons.1 hi with rfl | hi
      · exact hj
      · exact ih h i hi

theorem get_mem {n : Bytes} {bs : List Block} {i : NameInfo} (h : get n bs = some i) : i ∈ bs.flatten := by
  induction bs with
  | nil => cases h
  | cons b bs ih =>
    unfold Bzlenv.get at h
    split at h
    · rename_i j hj
      cases h
      simp [(lookupB_some hj).1]
    · simp [ih h]

theorem resolved_push {stk : List Expr} {rest : List Block} {new : Block} {x : Expr} (h : ∀ n, Resolved stk n (get n rest))
    (hn : ∀ n k d, (∃ i ∈ new, i.name = n ∧ i.kind = k ∧ i.definition = d) ↔ Binds x n k d) : ∀ n, Resolved (stk ++ [x]) n (get n (new :: rest)) := by
  intro n
  unfold Bzlenv.get
  cases hl : lookupB n new with
  | some i =>
    obtain ⟨h1, h2⟩ := lookupB_some hl
    exact ⟨h2, stk, x, [], rfl, (hn n _ _).1 ⟨i, h1, h2, rfl, rfl⟩, nofun⟩
  | none =>
    have hno : ∀ k d, ¬ Binds x n k d := by
      intro k d hb
      obtain ⟨i, hi, h1, _⟩ := (hn n k d).2 hb
      exact lookupB_none hl i hi h1
    have := h n
    dsimp only
    cases hg : get n rest with
    | none =>
      rw [hg] at this
      intro w hw
      rcases List.mem_append.1 hw with hw | hw
      · exact this w hw
      · cases List.mem_singleton.1 hw; exact hno
    | some i =>
      rw [hg] at this
      obtain ⟨h1, a, w, b, e, h2, h3⟩ := this
      refine ⟨h1, a, w, b ++ [x], by rw [e]; simp, h2, ?_⟩
      intro u hu
      rcases List.mem_append.1 hu with hu | hu
      · exact h3 u hu
      · cases List.mem_singleton.1 hu; exact hno

theorem resolved_plain {stk : List Expr} {bs : List Block} {x : Expr} (h : ∀ n, Resolved stk n (get n bs)) (hn : ∀ n k d, ¬ Binds x n k d) :
    ∀ n, Resolved (stk ++ [x]) n (get n bs) := by
  intro n
  have := h n
  cases hg : get n bs with
  | none =>
    rw [hg] at this
    intro w hw
    rcases List.mem_append.1 hw with hw | hw
    · exact this w hw
    · cases List.mem_singleton.1 hw; exact hn n
  | some i =>
    rw [hg] at this
    obtain ⟨h1, a, w, b, e, h2, h3⟩ := this
    refine ⟨h1, a, w, b ++ [x], by rw [e]; simp, h2, ?_⟩
    intro u hu
    rcases List.mem_append.1 hu with hu | hu
    · exact h3 u hu
    · cases List.mem_singleton.1 hu; exact hn n

/-! ## The traversal -/

/-- is a function definition -/
inductive IsDef : Expr → Prop
  | mk (c p n ps b cp fc fm t) : IsDef (.defS c p n ps b cp fc fm t)

/-- if a function is recorded, it is the innermost one -/
def FunctionOK (env : Env) : Prop :=
  ∀ f, env.function = some f → IsDef f ∧ ∃ a b, env.stack = a ++ f :: b ∧ ∀ u ∈ b, ¬ IsDef u

/-- the visible bindings -/
def infos (env : Env) : List NameInfo := env.blocks.flatten

/-- what is known at a visit -/
def VisitOK (root : Expr) (y : Expr × Env) : Prop :=
  Ancestors root y.2.stack y.1 ∧ (∀ n, Resolved y.2.stack n (get n y.2.blocks)) ∧ FunctionOK y.2

structure S (root : Expr) (log : List (Expr × Env)) (env : Env) : Prop where
  res : ∀ n, Resolved env.stack n (get n env.blocks)
  ne : env.blocks ≠ []
  fn : FunctionOK env
  visits : ∀ y ∈ log, VisitOK root y
  ids : ∀ i, (i ∈ infos env ∨ ∃ y ∈ log, i ∈ infos y.2) → i.id < env.nextID
  uniq : ∀ i j, (i ∈ infos env ∨ ∃ y ∈ log, i ∈ infos y.2) → (j ∈ infos env ∨ ∃ y ∈ log, j ∈ infos y.2) → i.id = j.id → i = j

/-- the environment is the same, but for used-up identifiers and a forgotten function -/
def Pres (e e' : Env) : Prop := e'.blocks = e.blocks ∧ e'.stack = e.stack ∧ e.nextID ≤ e'.nextID ∧ (e'.function = e.function ∨ e'.function = none)

theorem Pres.trans {a b c : Env} (h : Pres a b) (h' : Pres b c) : Pres a c := by
  obtain ⟨h1, h2, h3, h4⟩ := h
  obtain ⟨g1, g2, g3, g4⟩ := h'
  refine ⟨g1.trans h1, g2.trans h2, Nat.le_trans h3 g3, ?_⟩
  rcases g4 with g4 | g4
  · rcases h4 with h4 | h4
    · exact .inl (g4.trans h4)
    · exact .inr (g4.trans h4)
  · exact .inr g4

/-- **C56** A callback that leaves the blocks and the stack as they were (which `WalkOnceWithEnvironment` itself does, so recursion is fine) finds them so
again after every node: scopes are balanced. -/
theorem C56_balanced {σ : Type} (fct : σ → Env → Expr → σ × Env) (node : Expr) (s : σ) (env : Env) (hb : env.blocks ≠ [])
    (hfile : ∀ c l, node ≠ .file c l) (h : ∀ s env, ∀ x ∈ slots node, env.blocks ≠ [] → Pres env (fct s env x).2) :
    Pres env (walkOnceEnv fct node s env).2 := by
  have calls : ∀ (l : List Expr) (s : σ) (env : Env), env.blocks ≠ [] → (∀ x ∈ l, x ∈ slots node) → Pres env (callSlots fct s env l).2 := by
    intro l
    induction l with
    | nil => intro s env _ _; exact ⟨rfl, rfl, Nat.le_refl _, .inl rfl⟩
    | cons x l ih =>
      intro s env hb hl
      have h1 := h s env x (hl x (List.mem_cons_self ..)) hb
      exact h1.trans (ih _ _ (by rw [h1.1]; exact hb) (fun y hy => hl y (List.mem_cons_of_mem _ hy)))
  have plain : Pres env (pop (callSlots fct s { env with stack := env.stack ++ [node] } (slots node)).2) := by
    obtain ⟨h1, h2, h3, h4⟩ := calls (slots node) s { env with stack := env.stack ++ [node] } hb (fun _ h => h)
    refine ⟨h1, ?_, h3, h4⟩
    unfold pop
    dsimp only
    rw [h2]
    simp
  -- nodes with a block of their own
  have block : ∀ (env1 : Env) (new : Block), env1.blocks = new :: env.blocks → env1.stack = env.stack ++ [node] → env.nextID ≤ env1.nextID →
      let r := (callSlots fct s env1 (slots node)).2
      r.blocks.tail = env.blocks ∧ r.stack.dropLast = env.stack ∧ env.nextID ≤ r.nextID ∧ (r.function = env1.function ∨ r.function = none) := by
    intro env1 new hb1 hs1 hn1
    obtain ⟨h1, h2, h3, h4⟩ := calls (slots node) s env1 (by rw [hb1]; simp) (fun _ h => h)
    refine ⟨by rw [h1, hb1]; rfl, by rw [h2, hs1]; simp, Nat.le_trans hn1 h3, h4⟩
  cases node with
  | file c l => exact absurd rfl (hfile c l)
  | defS c p n ps b cp fc fm t =>
    have ha := adds_declareParams ps { enterBlock { env with stack := env.stack ++ [.defS c p n ps b cp fc fm t] } with
      function := some (.defS c p n ps b cp fc fm t) }
    have hin : InDef { enterBlock { env with stack := env.stack ++ [.defS c p n ps b cp fc fm t] } with
      function := some (.defS c p n ps b cp fc fm t) } := ⟨nofun, by simp [enterBlock]⟩
    obtain ⟨new, g1, g2, g3, g4, g5, _⟩ := adds_trans ha (adds_declareLocals b _ (inDef_adds ha hin)) [] env.blocks rfl
    obtain ⟨h1, h2, h3, _⟩ := block _ (new ++ []) g1 g2 (by rw [g5]; exact Nat.le_add_right ..)
    exact ⟨h1, h2, h3, .inr rfl⟩
  | compr c cu lb b cl fm e =>
    obtain ⟨new, g1, g2, g3, g4, g5, _⟩ := adds_declareClauses (.compr c cu lb b cl fm e) cl (enterBlock { env with stack := env.stack ++ [.compr c cu lb b cl fm e] })
      [] env.blocks rfl
    obtain ⟨h1, h2, h3, h4⟩ := block _ (new ++ []) g1 g2 (by rw [g5]; exact Nat.le_add_right ..)
    exact ⟨h1, h2, h3, by rw [g3] at h4; exact h4⟩
  | _ => exact plain

theorem inj_of_nodup : ∀ {l : List NameInfo}, (l.map (·.id)).Nodup → ∀ {i j}, i ∈ l → j ∈ l → i.id = j.id → i = j := by
  intro l
  induction l with
  | nil => intro _ i j hi; cases hi
  | cons a l ih =>
    intro h i j hi hj e
    rw [List.map_cons, List.nodup_cons] at h
    rcases List.mem_cons.1 hi with hi1 | hi1
    · rcases List.mem_cons.1 hj with hj1 | hj1
      · rw [hi1, hj1]
      · exact absurd (List.mem_map.2 ⟨j, hj1, e.symm.trans (congrArg _ hi1)⟩) h.1
    · rcases List.mem_cons.1 hj with hj1 | hj1
      · exact absurd (List.mem_map.2 ⟨i, hi1, e.trans (congrArg _ hj1)⟩) h.1
      · exact ih h.2 hi1 hj1 e

/-- the state after entering a node -/
theorem S.enter {root log env x} (h : S root log env) (hx : Ancestors root env.stack x) (env1 : Env) (new : List NameInfo)
    (hs1 : env1.stack = env.stack ++ [x]) (hres : ∀ n, Resolved (env.stack ++ [x]) n (get n env1.blocks)) (hne : env1.blocks ≠ [])
    (hinf : ∀ i, i ∈ infos env1 ↔ i ∈ new ∨ i ∈ infos env) (hid : ∀ i ∈ new, env.nextID ≤ i.id ∧ i.id < env1.nextID) (hnd : (new.map (·.id)).Nodup)
    (hle : env.nextID ≤ env1.nextID) (hf : FunctionOK env1) : S root (log ++ [(x, env)]) env1 := by
  have old : ∀ i, (i ∈ infos env1 ∨ ∃ y ∈ log ++ [(x, env)], i ∈ infos y.2) → i ∈ new ∨ (i ∈ infos env ∨ ∃ y ∈ log, i ∈ infos y.2) := by
    intro i hi
    rcases hi with hi | ⟨y, hy, hi⟩
    · rcases (hinf i).1 hi with hi | hi
      · exact .inl hi
      · exact .inr (.inl hi)
    · rcases List.mem_append.1 hy with hy | hy
      · exact .inr (.inr ⟨y, hy, hi⟩)
      · cases List.mem_singleton.1 hy
        exact .inr (.inl hi)
  refine ⟨by rw [hs1]; exact hres, hne, hf, ?_, ?_, ?_⟩
  · intro y hy
    rcases List.mem_append.1 hy with hy | hy
    · exact h.visits y hy
    · cases List.mem_singleton.1 hy
      exact ⟨hx, h.res, h.fn⟩
  · intro i hi
    rcases old i hi with hi | hi
    · exact (hid i hi).2
    · exact Nat.lt_of_lt_of_le (h.ids i hi) hle
  · intro i j hi hj e
    rcases old i hi with hi | hi
    · rcases old j hj with hj | hj
      · exact inj_of_nodup hnd hi hj e
      · have := (hid i hi).1
        have := h.ids j hj
        omega
    · rcases old j hj with hj | hj
      · have := (hid j hj).1
        have := h.ids i hi
        omega
      · exact h.uniq i j hi hj e

/-- the state after leaving it -/
theorem S.leave {root log log' env env2} (h : S root log env) (h2 : S root log' env2) (env3 : Env) (hb : env3.blocks = env.blocks) (hs : env3.stack = env.stack)
    (hn : env3.nextID = env2.nextID) (hinf : ∀ i, i ∈ infos env → i ∈ infos env2) (hf : env3.function = env.function ∨ env3.function = none) :
    S root log' env3 := by
  have hi3 : infos env3 = infos env := by unfold infos; rw [hb]
  have old : ∀ i, (i ∈ infos env3 ∨ ∃ y ∈ log', i ∈ infos y.2) → (i ∈ infos env2 ∨ ∃ y ∈ log', i ∈ infos y.2) := by
    intro i hi
    rcases hi with hi | hi
    · rw [hi3] at hi; exact .inl (hinf i hi)
    · exact .inr hi
  refine ⟨by rw [hb, hs]; exact h.res, by rw [hb]; exact h.ne, ?_, h2.visits, ?_, ?_⟩
  · intro f hff
    rcases hf with hf | hf
    · rw [hf] at hff
      rw [hs]
      exact h.fn f hff
    · rw [hf] at hff; cases hff
  · intro i hi
    rw [hn]
    exact h2.ids i (old i hi)
  · intro i j hi hj
    exact h2.uniq i j (old i hi) (old j hj)

/-- nodes that open no scope bind nothing -/
theorem functionOK_push {env : Env} {x : Expr} {env1 : Env} (h : FunctionOK env) (hx : ¬ IsDef x) (hf : env1.function = env.function)
    (hs : env1.stack = env.stack ++ [x]) : FunctionOK env1 := by
  intro f hff
  rw [hf] at hff
  obtain ⟨h1, a, b, e, h2⟩ := h f hff
  refine ⟨h1, a, b ++ [x], by rw [hs, e]; simp, ?_⟩
  intro u hu
  rcases List.mem_append.1 hu with hu | hu
  · exact h2 u hu
  · cases List.mem_singleton.1 hu; exact hx

/-- what the callback keeps -/
def Keeps (root : Expr) (f : List (Expr × Env) → Env → Expr → List (Expr × Env) × Env) (stk : List Expr) : Prop :=
  ∀ log env x, env.stack = stk → Ancestors root stk x → S root log env → S root (f log env x).1 (f log env x).2 ∧ Pres env (f log env x).2

theorem callSlots_keeps {root f stk} (hf : Keeps root f stk) : ∀ (l : List Expr) (log : List (Expr × Env)) (env : Env), env.stack = stk →
    (∀ x ∈ l, Ancestors root stk x) → S root log env → S root (callSlots f log env l).1 (callSlots f log env l).2 ∧ Pres env (callSlots f log env l).2 := by
  intro l
  induction l with
  | nil => intro log env _ _ h; exact ⟨h, rfl, rfl, Nat.le_refl _, .inl rfl⟩
  | cons x l ih =>
    intro log env hs hl h
    obtain ⟨h1, h2⟩ := hf log env x hs (hl x (List.mem_cons_self ..)) h
    obtain ⟨h3, h4⟩ := ih _ _ (h2.2.1.trans hs) (fun y hy => hl y (List.mem_cons_of_mem _ hy)) h1
    exact ⟨h3, h2.trans h4⟩

theorem walkOnce_keeps {root f} (hf : ∀ stk, stk ≠ [] → Keeps root f stk) (log : List (Expr × Env)) (env : Env) (x : Expr)
    (hx : Ancestors root env.stack x) (hfile : ∀ c l, x ≠ .file c l) (h : S root log env) :
    S root (walkOnceEnv f x (log ++ [(x, env)]) env).1 (walkOnceEnv f x (log ++ [(x, env)]) env).2 ∧ Pres env (walkOnceEnv f x (log ++ [(x, env)]) env).2 := by
  have kids : ∀ y ∈ slots x, Ancestors root (env.stack ++ [x]) y := fun y hy => .child _ _ _ hx hy
  have plain : (∀ n k d, ¬ Binds x n k d) → ¬ IsDef x →
      let r := callSlots f (log ++ [(x, env)]) { env with stack := env.stack ++ [x] } (slots x)
      S root r.1 (pop r.2) ∧ Pres env (pop r.2) := by
    intro hno hd
    have h1 := S.enter h hx { env with stack := env.stack ++ [x] } [] rfl (resolved_plain h.res hno) h.ne (by intro i; simp [infos]) (by simp) (by simp)
      (Nat.le_refl _) (functionOK_push h.fn hd rfl rfl)
    obtain ⟨h2, p1, p2, p3, p4⟩ := callSlots_keeps (hf _ (by simp)) (slots x) _ { env with stack := env.stack ++ [x] } rfl kids h1
    have hst : (pop (callSlots f (log ++ [(x, env)]) { env with stack := env.stack ++ [x] } (slots x)).2).stack = env.stack := by
      unfold pop
      dsimp only
      rw [p2]
      simp
    refine ⟨S.leave h h2 _ p1 hst rfl ?_ p4, p1, hst, p3, p4⟩
    intro i hi
    unfold infos at hi ⊢
    rw [p1]
    exact hi
  have block : ∀ (env1 : Env) (new : List NameInfo), env1.blocks = new :: env.blocks → env1.stack = env.stack ++ [x] → env.nextID ≤ env1.nextID →
      (∀ n k d, (∃ i ∈ new, i.name = n ∧ i.kind = k ∧ i.definition = d) ↔ Binds x n k d) → (∀ i ∈ new, env.nextID ≤ i.id ∧ i.id < env1.nextID) →
      (new.map (·.id)).Nodup → FunctionOK env1 →
      let r := callSlots f (log ++ [(x, env)]) env1 (slots x)
      ∀ g : Option Expr, g = none ∨ (g = r.2.function ∧ env1.function = env.function) →
      S root r.1 (pop (exitBlock { r.2 with function := g })) ∧ Pres env (pop (exitBlock { r.2 with function := g })) := by
    intro env1 new hb hs hn hnew hid hnd hfn r g hg
    have h1 := S.enter h hx env1 new hs (by rw [hb]; exact resolved_push h.res hnew) (by rw [hb]; simp) (by intro i; unfold infos; rw [hb]; simp) hid hnd hn hfn
    obtain ⟨h2, p1, p2, p3, p4⟩ := callSlots_keeps (hf _ (by simp)) (slots x) _ env1 hs kids h1
    have hbl : (pop (exitBlock { r.2 with function := g })).blocks = env.blocks := by
      show r.2.blocks.tail = _
      rw [show r.2.blocks = env1.blocks from p1, hb]
      rfl
    have hst : (pop (exitBlock { r.2 with function := g })).stack = env.stack := by
      show r.2.stack.dropLast = _
      rw [show r.2.stack = env1.stack from p2, hs]
      simp
    have hfun : (pop (exitBlock { r.2 with function := g })).function = env.function ∨ (pop (exitBlock { r.2 with function := g })).function = none := by
      show g = _ ∨ g = none
      rcases hg with hg | ⟨hg, he⟩
      · exact .inr hg
      · rcases p4 with p4 | p4
        · exact .inl (by rw [hg]; exact p4.trans he)
        · exact .inr (by rw [hg]; exact p4)
    refine ⟨S.leave h h2 _ hbl hst rfl ?_ hfun, hbl, hst, Nat.le_trans hn p3, hfun⟩
    intro i hi
    unfold infos at hi ⊢
    rw [p1, hb]
    simp [hi]
  cases x with
  | file c l => exact absurd rfl (hfile c l)
  | defS c p n ps b cp fc fm t =>
    have ha := adds_declareParams ps { enterBlock { env with stack := env.stack ++ [.defS c p n ps b cp fc fm t] } with
      function := some (.defS c p n ps b cp fc fm t) }
    have hin : InDef { enterBlock { env with stack := env.stack ++ [.defS c p n ps b cp fc fm t] } with
      function := some (.defS c p n ps b cp fc fm t) } := ⟨nofun, by simp [enterBlock]⟩
    obtain ⟨new, g1, g2, g3, g4, g5, g6, g7⟩ := adds_trans ha (adds_declareLocals b _ (inDef_adds ha hin)) [] env.blocks rfl
    refine block _ new (by rw [g1]; simp) g2 (by rw [g5]; exact Nat.le_add_right ..) (fun n k d => (g4 n k d).trans binds_def.symm) g6 g7 ?_ none (.inl rfl)
    intro f hff
    rw [g3] at hff
    cases hff
    exact ⟨.mk .., env.stack, [], g2, nofun⟩
  | compr c cu lb b cl fm e =>
    obtain ⟨new, g1, g2, g3, g4, g5, g6, g7⟩ := adds_declareClauses (.compr c cu lb b cl fm e) cl (enterBlock { env with stack := env.stack ++ [.compr c cu lb b cl fm e] })
      [] env.blocks rfl
    have hbinds : ∀ n k d, (∃ i ∈ new, i.name = n ∧ i.kind = k ∧ i.definition = d) ↔ Binds (.compr c cu lb b cl fm e) n k d := by
      intro n k d
      rw [g4]
      constructor
      · rintro ⟨rfl, rfl, c', f', v', i', x', hm, hn⟩
        exact .compr _ _ _ _ _ _ _ c' f' v' i' x' n hm hn
      · intro h
        cases h with
        | compr _ _ _ _ _ _ _ c' f' v' i' x' _ hm hn => exact ⟨rfl, rfl, c', f', v', i', x', hm, hn⟩
    exact block _ new (by rw [g1]; simp) g2 (by rw [g5]; exact Nat.le_add_right ..) hbinds g6 g7 (functionOK_push (x := .compr c cu lb b cl fm e) h.fn (fun hd => nomatch hd) g3 g2) _ (.inr ⟨rfl, g3⟩)
  | _ => exact plain nofun nofun

theorem ancestors_inside {root stk x} (h : Ancestors root stk x) : stk ≠ [] → Inside root x := by
  induction h with
  | root => intro h; exact absurd rfl h
  | child stk v x hv hx ih =>
    intro _
    cases hv with
    | root => exact .slot x hx
    | child stk' w _ hw hvw => exact .deeper _ _ (ih (by simp)) hx

theorem walkEnv_keeps {root : Expr} (hroot : ∀ c l, ¬ Inside root (.file c l)) : ∀ (n : Nat) (stk : List Expr), stk ≠ [] → Keeps root (walkEnv n) stk := by
  intro n
  induction n with
  | zero => intro stk _ log env x _ _ h; exact ⟨h, rfl, rfl, Nat.le_refl _, .inl rfl⟩
  | succ n ih =>
    intro stk hstk log env x hs hx h
    unfold walkEnv
    by_cases hnil : x.isNil = true
    · rw [if_pos hnil]
      exact ⟨h, rfl, rfl, Nat.le_refl _, .inl rfl⟩
    · rw [if_neg hnil]
      subst hs
      refine walkOnce_keeps ih log env x hx ?_ h
      rintro c l rfl
      exact hroot c l (ancestors_inside hx hstk)

theorem start (root : Expr) : S root [] {} := by
  refine ⟨?_, by simp, nofun, nofun, ?_, ?_⟩
  · intro n
    show Resolved [] n (get n [[]])
    exact nofun
  · rintro i (hi | ⟨_, h, _⟩)
    · simp [infos] at hi
    · cases h
  · rintro i j (hi | ⟨_, h, _⟩)
    · simp [infos] at hi
    · cases h

theorem walkAll_S (root : Expr) (hroot : ∀ c l, ¬ Inside root (.file c l)) : ∃ env, S root (walkAll root) env := by
  unfold walkAll
  cases hn : size root with
  | zero => exact ⟨_, start root⟩
  | succ n =>
    unfold walkEnv
    by_cases hnil : root.isNil = true
    · rw [if_pos hnil]; exact ⟨_, start root⟩
    · rw [if_neg hnil]
      by_cases hf : ∃ c l, root = .file c l
      · obtain ⟨c, l, rfl⟩ := hf
        obtain ⟨new, g1, g2, g3, g4, g5, g6, g7⟩ := adds_declareGlobals l { ({} : Env) with stack := [.file c l] } rfl (by simp) [] [] rfl
        have hb : ∀ n k d, (∃ i ∈ new, i.name = n ∧ i.kind = k ∧ i.definition = d) ↔ Binds (.file c l) n k d := fun n k d => (g4 n k d).trans binds_file.symm
        have h1 := S.enter (start (.file c l)) .root (declareGlobals { ({} : Env) with stack := [.file c l] } l) new g2
          (by rw [g1, List.append_nil]; exact resolved_push (rest := []) (fun n => by exact nofun) hb) (by rw [g1]; simp)
          (by intro i; unfold infos; rw [g1]; simp) g6 g7 (by rw [g5]; exact Nat.zero_le _)
          (functionOK_push (env := {}) (x := .file c l) nofun nofun g3 g2)
        obtain ⟨h2, _⟩ := callSlots_keeps (walkEnv_keeps hroot n _ (by simp)) (slots (.file c l)) _ _ g2 (fun y hy => .child [] _ _ .root hy) h1
        exact ⟨_, h2⟩
      · have := walkOnce_keeps (walkEnv_keeps hroot n) [] {} root .root (fun c l e => hf ⟨c, l, e⟩) (start root)
        exact ⟨_, this.1⟩

/-- **C56** Whenever a traversal looks at a node, looking up any name in the environment gives a binding of the innermost enclosing scope that binds it, and
nothing if none does. The environment's stack holds the ancestors of the node. -/
theorem C56_resolve (root : Expr) (hroot : ∀ c l, ¬ Inside root (.file c l)) (x : Expr) (env : Env) (h : (x, env) ∈ walkAll root) :
    Ancestors root env.stack x ∧ ∀ n, Resolved env.stack n (get n env.blocks) := by
  obtain ⟨_, hs⟩ := walkAll_S root hroot
  have := hs.visits _ h
  exact ⟨this.1, this.2.1⟩

/-- **C56** If the environment names a function, it is the innermost one around the node. -/
theorem C56_function (root : Expr) (hroot : ∀ c l, ¬ Inside root (.file c l)) (x : Expr) (env : Env) (h : (x, env) ∈ walkAll root) (f : Expr)
    (hf : env.function = some f) : IsDef f ∧ ∃ a b, env.stack = a ++ f :: b ∧ ∀ u ∈ b, ¬ IsDef u := by
  obtain ⟨_, hs⟩ := walkAll_S root hroot
  exact (hs.visits _ h).2.2 f hf

/-- **C56** Identifiers of bindings are unique: if a lookup at one node and a lookup at another give the same identifier, they give the same binding. -/
theorem C56_unique (root : Expr) (hroot : ∀ c l, ¬ Inside root (.file c l)) (x y : Expr) (env env' : Env) (h : (x, env) ∈ walkAll root)
    (h' : (y, env') ∈ walkAll root) (n n' : Bytes) (i i' : NameInfo) (hi : get n env.blocks = some i) (hi' : get n' env'.blocks = some i') (e : i.id = i'.id) :
    i = i' := by
  obtain ⟨_, hs⟩ := walkAll_S root hroot
  exact hs.uniq i i' (.inr ⟨_, h, get_mem hi⟩) (.inr ⟨_, h', get_mem hi'⟩) e

/-! ## Examples -/

/-- `def f(x): [x for x in y]` in a file that assigns to `y` -/
def exFile : Expr := .file {} [
  .assign {} (.ident { name := b!"y" }) {} b!"=" false (.literal {} {} b!"1"),
  .defS {} {} b!"f" [.ident { name := b!"x" }]
    [.compr {} false {} (.ident { name := b!"x" }) [.forClause {} {} (.ident { name := b!"x" }) {} (.ident { name := b!"y" })] false {}] {} false false .nil]

/-- the last node visited is `y` in the comprehension: there `x` is the loop variable, `y` the global and `f` the function -/
example : (match (walkAll exFile).getLast? with
    | some (.ident i, env) => (i.name, [b!"x", b!"y", b!"f", b!"z"].map fun n => (get n env.blocks).map (·.kind), env.stack.length)
    | _ => ([], [], 0)) = (b!"y", [some .local_, some .global, some .function, none], 4) := rfl

/-- After a nested function the environment has forgotten the enclosing one: at the last statement of
`def f(): (def g(): pass); z` the environment names no function. -/
theorem C56_function_witness : (match (walkAll (.file {} [.defS {} {} b!"f" [] [.defS {} {} b!"g" [] [.branch {} b!"pass" {}] {} false false .nil,
      .ident { name := b!"z" }] {} false false .nil])).getLast? with
    | some (.ident i, env) => (i.name, env.function.isSome, env.stack.length)
    | _ => ([], true, 0)) = (b!"z", false, 2) := rfl

end Verif.Props.Bzlenv
