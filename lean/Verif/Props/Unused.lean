import Verif.Model.Unused
import Verif.Props.Uninit
import Verif.Props.UnusedLoads
/-
C74: the unused-variable check.
-/
namespace Verif.Props.Unused
open Verif Verif.Syntax Verif.Walk Verif.Edit Verif.Unused Verif.Props.Uninit
open Verif.Props.UnusedLoads (Kept)

/-! ### Specification -/

/-- the name starts with an underscore -/
def Private (n : Bytes) : Prop := ∃ r, n = 95 :: r

mutual
/-- a statement and the statements inside it, in textual order, without those of nested functions -/
def stmts1 : Expr → List Expr
  | .forS c p v x b => .forS c p v x b :: stmts b
  | .ifS c p cd t e f => .ifS c p cd t e f :: (stmts t ++ stmts f)
  | e => [e]
/-- the statements of a scope -/
def stmts : List Expr → List Expr
  | [] => []
  | s :: l => stmts1 s ++ stmts l
end

/-- what is read to find the place that is assigned: in `a[i].b, c = ...`, `a` and `i` -/
inductive Place : Expr → IdentN → Prop
  | tuple (c nb s l e f m x i) : x ∈ l → Place x i → Place (.tuple c nb s l e f m) i
  | list (c s l e m x i) : x ∈ l → Place x i → Place (.list c s l e m) i
  | other (e i) : (∀ j, e ≠ .ident j) → (∀ c nb s l d f m, e ≠ .tuple c nb s l d f m) → (∀ c s l d m, e ≠ .list c s l d m) →
      Free (fun _ => False) e i → Place e i

/-- the statement itself (not the statements inside it) uses the identifier -/
inductive Read : Expr → IdentN → Prop
  | value (c l p op lb r i) : Free (fun _ => False) r i → Read (.assign c l p op lb r) i
  | place (c l p op lb r i) : Place l i → Read (.assign c l p op lb r) i
  | iter (c p v x b i) : Free (fun _ => False) x i → Read (.forS c p v x b) i
  | loopPlace (c p v x b i) : Place v i → Read (.forS c p v x b) i
  | cond (c p cd t e f i) : Free (fun _ => False) cd i → Read (.ifS c p cd t e f) i
  | other (e i) : (∀ c l p op lb r, e ≠ .assign c l p op lb r) → (∀ c p v x b, e ≠ .forS c p v x b) →
      (∀ c p cd t d f, e ≠ .ifS c p cd t d f) → (∀ c p n ps b cp fc fm t, e ≠ .defS c p n ps b cp fc fm t) →
      (∀ c p m f t r fc, e ≠ .load c p m f t r fc) → Free (fun _ => False) e i → Read e i

/-- the statement itself assigns the variable -/
inductive Sets : Expr → Bytes → Prop
  | assign (c l p op lb r n) : Binds l n → Sets (.assign c l p op lb r) n
  | loop (c p v x b n) : Binds v n → Sets (.forS c p v x b) n

/-- the variable is defined in the scope -/
def Variable (ps body : List Expr) (n : Bytes) : Prop := (∃ p ∈ ps, Named p n) ∨ ∃ x ∈ stmts body, Sets x n

/-- the function is defined in the scope -/
def Function (body : List Expr) (n : Bytes) : Prop := ∃ c p ps b cp fc fm t, .defS c p n ps b cp fc fm t ∈ stmts body

/-- The name is used in the scope with these parameters and this body, or in a function inside it in which it is not defined. The default
values of the parameters count as part of the scope. -/
inductive Mentions (n : Bytes) : List Expr → List Expr → Prop
  | default (ps body c l p op lb r i) : .assign c l p op lb r ∈ ps → Free (fun _ => False) r i → i.name = n → Mentions n ps body
  | here (ps body x i) : x ∈ stmts body → Read x i → i.name = n → Mentions n ps body
  | nested (ps body c p m ps' b cp fc fm t) : .defS c p m ps' b cp fc fm t ∈ stmts body → Mentions n ps' b →
      ¬ Variable ps' b n → ¬ Function b n → Mentions n ps body

/-- the assignment allows the variable to be unused: it is marked, or other variables assigned with it do not start with `_` -/
inductive Excused : Expr → Bytes → Prop
  | marked (c l p op lb r n) : Kept (.assign c l p op lb r) → Excused (.assign c l p op lb r) n
  | partly (c l p op lb r n m) : Private n → Binds l m → ¬ Private m → Excused (.assign c l p op lb r) n
  | loop (c p v x b n) : Private n → Excused (.forS c p v x b) n

/-- the name may be unused in the scope -/
inductive Tolerated (ps body : List Expr) (n : Bytes) : Prop
  | param (p) : p ∈ ps → Named p n → n = b!"name" ∨ Private n ∨ Kept p → Tolerated ps body n
  | function (c p ps' b cp fc fm t) : .defS c p n ps' b cp fc fm t ∈ stmts body → Kept (.defS c p n ps' b cp fc fm t) → Tolerated ps body n
  | first (a x b) : (∀ p ∈ ps, ¬ Named p n) → stmts body = a ++ x :: b → (∀ y ∈ a, ¬ Sets y n) → Sets x n → Excused x n → Tolerated ps body n

/-- the scopes of a file: parameters, body, and whether it is the file itself -/
inductive Scope (f : File) : Expr → List Expr → List Expr → Bool → Prop
  | file : Scope f f.toExpr [] f.stmts true
  | nested (sc ps body top c p n ps' b cp fc fm t) : Scope f sc ps body top → .defS c p n ps' b cp fc fm t ∈ stmts body →
      Scope f (.defS c p n ps' b cp fc fm t) ps' b false

/-! ### Proofs: names -/

theorem private_iff (n : Bytes) : underscored n = true ↔ Private n := by
  unfold underscored Private hasPrefix
  cases n with
  | nil => simp
  | cons a r =>
    simp only [List.isPrefixOf, Bool.and_true, beq_iff_eq, List.cons.injEq]
    exact ⟨fun h => ⟨r, h.symm, rfl⟩, fun ⟨_, h, _⟩ => h.symm⟩

theorem kept_iff (e : Expr) : containsComments e b!"@unused" = true ↔ Kept e := UnusedLoads.kept_iff e

theorem outer_free (e : Expr) (i : IdentN) : i ∈ Uninit.outerN (2 * size e) [] e ↔ Free (fun _ => False) e i := by
  rw [outer_iff _ _ _ _ (by omega), free_nil]

theorem target_iff : ∀ (n : Nat) (e : Expr) (i : IdentN), 2 * size e ≤ n → (i ∈ Uninit.targetN n [] e ↔ Place e i) := by
  intro n
  induction n with
  | zero => intro e i h; have := Uninit.size_pos e; omega
  | succ n ih =>
    intro e i hn
    have other : (∀ j, e ≠ .ident j) → (∀ c nb s l d f m, e ≠ .tuple c nb s l d f m) → (∀ c s l d m, e ≠ .list c s l d m) →
        (i ∈ Uninit.outerN n [] e ↔ Place e i) := by
      intro h1 h2 h3
      rw [outer_iff _ _ _ _ (by have := Uninit.size_pos e; omega), free_nil]
      constructor
      · exact .other _ _ h1 h2 h3
      · intro h
        cases h with
        | tuple => exact absurd rfl (h2 _ _ _ _ _ _ _)
        | list => exact absurd rfl (h3 _ _ _ _ _)
        | other _ _ _ _ _ h => exact h
    cases e
    case ident j =>
      constructor
      · intro h; cases h
      · intro h
        cases h with
        | other _ _ h => exact absurd rfl (h j)
    case tuple c nb s l e f m =>
      rw [Uninit.targetN, List.mem_flatMap]
      constructor
      · rintro ⟨x, hx, h⟩
        have := size_slot_lt (v := .tuple c nb s l e f m) (x := x) hx
        exact .tuple _ _ _ _ _ _ _ x i hx ((ih x i (by omega)).1 h)
      · intro h
        cases h with
        | tuple _ _ _ _ _ _ _ x _ hx h =>
          have := size_slot_lt (v := .tuple c nb s l e f m) (x := x) hx
          exact ⟨x, hx, (ih x i (by omega)).2 h⟩
        | other _ _ _ h => exact absurd rfl (h _ _ _ _ _ _ _)
    case list c s l e m =>
      rw [Uninit.targetN, List.mem_flatMap]
      constructor
      · rintro ⟨x, hx, h⟩
        have := size_slot_lt (v := .list c s l e m) (x := x) hx
        exact .list _ _ _ _ _ x i hx ((ih x i (by omega)).1 h)
      · intro h
        cases h with
        | list _ _ _ _ _ x _ hx h =>
          have := size_slot_lt (v := .list c s l e m) (x := x) hx
          exact ⟨x, hx, (ih x i (by omega)).2 h⟩
        | other _ _ _ _ h => exact absurd rfl (h _ _ _ _ _)
    all_goals exact other (by intros; simp) (by intros; simp) (by intros; simp)

/-- the identifiers a statement uses -/
theorem used_iff (e : Expr) (i : IdentN) (hd : ∀ c p n ps b cp fc fm t, e ≠ .defS c p n ps b cp fc fm t)
    (hl : ∀ c p m f t r fc, e ≠ .load c p m f t r fc) : i ∈ Uninit.used e ↔ Read e i := by
  have other : (∀ c l p op lb r, e ≠ .assign c l p op lb r) → (∀ c p v x b, e ≠ .forS c p v x b) →
      (∀ c p cd t d f, e ≠ .ifS c p cd t d f) → (i ∈ Uninit.outerN (2 * size e) [] e ↔ Read e i) := by
    intro h1 h2 h3
    rw [outer_free]
    constructor
    · exact .other _ _ h1 h2 h3 hd hl
    · intro h
      cases h with
      | value => exact absurd rfl (h1 _ _ _ _ _ _)
      | place => exact absurd rfl (h1 _ _ _ _ _ _)
      | iter => exact absurd rfl (h2 _ _ _ _ _)
      | loopPlace => exact absurd rfl (h2 _ _ _ _ _)
      | cond => exact absurd rfl (h3 _ _ _ _ _ _)
      | other _ _ _ _ _ _ _ h => exact h
  cases e
  case assign c l p op lb r =>
    rw [Uninit.used, List.mem_append, outer_free, target_iff _ _ _ (Nat.le_refl _)]
    constructor
    · rintro (h | h)
      · exact .place _ _ _ _ _ _ _ h
      · exact .value _ _ _ _ _ _ _ h
    · intro h
      cases h with
      | value _ _ _ _ _ _ _ h => exact .inr h
      | place _ _ _ _ _ _ _ h => exact .inl h
      | other _ _ h => exact absurd rfl (h _ _ _ _ _ _)
  case forS c p v x b =>
    rw [Uninit.used, List.mem_append, outer_free, target_iff _ _ _ (Nat.le_refl _)]
    constructor
    · rintro (h | h)
      · exact .loopPlace _ _ _ _ _ _ h
      · exact .iter _ _ _ _ _ _ h
    · intro h
      cases h with
      | iter _ _ _ _ _ _ h => exact .inr h
      | loopPlace _ _ _ _ _ _ h => exact .inl h
      | other _ _ _ h => exact absurd rfl (h _ _ _ _ _)
  case ifS c p cd t e f =>
    rw [Uninit.used, outer_free]
    constructor
    · exact .cond _ _ _ _ _ _ _
    · intro h
      cases h with
      | cond _ _ _ _ _ _ _ h => exact h
      | other _ _ _ _ h => exact absurd rfl (h _ _ _ _ _ _)
  all_goals exact other (by intros; simp) (by intros; simp) (by intros; simp)

theorem paramIdent_iff : ∀ (e : Expr) (n : Bytes), paramIdent e = some n ↔ Named e n
  | .ident i, n => by
    rw [paramIdent, Option.some.injEq]
    exact ⟨fun h => h ▸ .ident i, fun h => (by cases h; rfl)⟩
  | .typedIdent c i t, n => by
    rw [paramIdent, Option.some.injEq]
    exact ⟨fun h => h ▸ .typed c i t, fun h => (by cases h; rfl)⟩
  | .assign c l p op lb r, n => by
    rw [paramIdent, paramIdent_iff l n]
    exact ⟨.default _ _ _ _ _ _ _, fun h => (by cases h; assumption)⟩
  | .unary c p op x, n => by
    rw [paramIdent, paramIdent_iff x n]
    exact ⟨.star _ _ _ _ _, fun h => (by cases h; assumption)⟩
  | .nil, _ | .commentBlock .., _ | .branch .., _ | .literal .., _ | .string .., _ | .call .., _ | .dot .., _ | .compr .., _ | .forClause .., _
  | .ifClause .., _ | .keyValue .., _ | .dict .., _ | .set .., _ | .binary .., _ | .paren .., _ | .slice .., _ | .index .., _ | .lambda .., _
  | .cond .., _ | .load .., _ | .defS .., _ | .returnS .., _ | .forS .., _ | .ifS .., _ | .file .., _ | .list .., _ | .tuple .., _ =>
    ⟨fun h => (by simp [paramIdent] at h), fun h => (by cases h)⟩

theorem named_unique (e : Expr) (n m : Bytes) (h1 : Named e n) (h2 : Named e m) : n = m := by
  rw [← paramIdent_iff] at h1 h2
  rw [h1] at h2; exact Option.some.inj h2

theorem params_iff (ps : List Expr) (n : Bytes) (b : Bool) : (n, b) ∈ params ps ↔
    ∃ p ∈ ps, Named p n ∧ b = (decide (n = b!"name") || underscored n || containsComments p b!"@unused") := by
  unfold params
  rw [List.mem_flatMap]
  constructor
  · rintro ⟨p, hp, h⟩
    cases hi : paramIdent p with
    | none => rw [hi] at h; cases h
    | some m =>
      rw [hi] at h
      simp only [List.mem_singleton, Prod.mk.injEq] at h
      obtain ⟨rfl, h⟩ := h
      exact ⟨p, hp, (paramIdent_iff _ _).1 hi, h⟩
  · rintro ⟨p, hp, hn, h⟩
    refine ⟨p, hp, ?_⟩
    rw [(paramIdent_iff _ _).2 hn]
    simp [h]

theorem params_names (ps : List Expr) (n : Bytes) : n ∈ (params ps).map (·.1) ↔ ∃ p ∈ ps, Named p n := by
  rw [List.mem_map]
  constructor
  · rintro ⟨⟨m, b⟩, h, rfl⟩
    obtain ⟨p, hp, hn, _⟩ := (params_iff _ _ _).1 h
    exact ⟨p, hp, hn⟩
  · rintro ⟨p, hp, hn⟩
    exact ⟨(n, _), (params_iff _ _ _).2 ⟨p, hp, hn, rfl⟩, rfl⟩

theorem defaults_iff (ps : List Expr) (n : Bytes) : n ∈ defaults ps ↔
    ∃ c l p op lb r i, Expr.assign c l p op lb r ∈ ps ∧ Free (fun _ => False) r i ∧ i.name = n := by
  unfold defaults
  rw [List.mem_flatMap]
  constructor
  · rintro ⟨x, hx, h⟩
    cases x
    case assign c l p op lb r =>
      obtain ⟨i, hi, hn⟩ := List.mem_map.1 h
      exact ⟨c, l, p, op, lb, r, i, hx, (outer_free _ _).1 hi, hn⟩
    all_goals cases h
  · rintro ⟨c, l, p, op, lb, r, i, hx, hi, hn⟩
    exact ⟨_, hx, List.mem_map.2 ⟨i, (outer_free _ _).2 hi, hn⟩⟩

/-! ### Proofs: the scan of a scope -/

/-- what a statement adds by itself -/
def own : Expr → Scan
  | .defS c p n ps b cp fc fm t => scan1 (.defS c p n ps b cp fc fm t)
  | .load .. => {}
  | e => { defs := assigned e, used := (Uninit.used e).map (·.name) }

theorem assigned_if (c p cd t e f) : assigned (.ifS c p cd t e f) = [] := rfl

theorem single (e : Expr) (h1 : stmts1 e = [e]) (h2 : scan1 e = own e) : (scan1 e).defs = (stmts1 e).flatMap (fun x => (own x).defs) ∧
    (scan1 e).funs = (stmts1 e).flatMap (fun x => (own x).funs) ∧ (scan1 e).used = (stmts1 e).flatMap (fun x => (own x).used) ∧
    (scan1 e).found = (stmts1 e).flatMap (fun x => (own x).found) := by
  rw [h1, h2]; simp

mutual
theorem scan1_own : ∀ e : Expr, (scan1 e).defs = (stmts1 e).flatMap (fun x => (own x).defs) ∧
    (scan1 e).funs = (stmts1 e).flatMap (fun x => (own x).funs) ∧ (scan1 e).used = (stmts1 e).flatMap (fun x => (own x).used) ∧
    (scan1 e).found = (stmts1 e).flatMap (fun x => (own x).found)
  | .forS c p v x b => by
    obtain ⟨h1, h2, h3, h4⟩ := scanL_own b
    simp only [scan1, Scan.add, stmts1, List.flatMap_cons, own, h1, h2, h3, h4, List.nil_append, and_self]
  | .ifS c p cd t e f => by
    obtain ⟨h1, h2, h3, h4⟩ := scanL_own t
    obtain ⟨g1, g2, g3, g4⟩ := scanL_own f
    simp only [scan1, Scan.add, stmts1, List.flatMap_cons, List.flatMap_append, own, assigned_if, h1, h2, h3, h4, g1, g2, g3, g4,
      List.nil_append, and_self]
  | .defS .. => single _ rfl rfl
  | .load .. => single _ rfl rfl
  | .nil | .commentBlock .. | .typedIdent .. | .branch .. | .literal .. | .string .. | .call .. | .dot .. | .compr .. | .forClause .. | .ifClause .. | .keyValue ..
  | .dict .. | .set .. | .unary .. | .binary .. | .assign .. | .paren .. | .slice .. | .index .. | .lambda .. | .cond .. | .returnS ..
  | .file .. | .ident .. | .list .. | .tuple .. => single _ rfl rfl
theorem scanL_own : ∀ l : List Expr, (scanL l).defs = (stmts l).flatMap (fun x => (own x).defs) ∧
    (scanL l).funs = (stmts l).flatMap (fun x => (own x).funs) ∧ (scanL l).used = (stmts l).flatMap (fun x => (own x).used) ∧
    (scanL l).found = (stmts l).flatMap (fun x => (own x).found)
  | [] => by simp [scanL, stmts]
  | s :: l => by
    obtain ⟨h1, h2, h3, h4⟩ := scan1_own s
    obtain ⟨g1, g2, g3, g4⟩ := scanL_own l
    simp only [scanL, Scan.add, stmts, List.flatMap_append, h1, h2, h3, h4, g1, g2, g3, g4, and_self]
end

mutual
theorem size_stmts1 : ∀ (e x : Expr), x ∈ stmts1 e → size x ≤ size e
  | .forS c p v y b, x, h => by
    rw [stmts1, List.mem_cons] at h
    rcases h with rfl | h
    · exact Nat.le_refl _
    · have := size_stmts b x h; simp only [size]; omega
  | .ifS c p cd t e f, x, h => by
    rw [stmts1, List.mem_cons, List.mem_append] at h
    rcases h with rfl | h | h
    · exact Nat.le_refl _
    · have := size_stmts t x h; simp only [size]; omega
    · have := size_stmts f x h; simp only [size]; omega
  | .nil, x, h | .commentBlock .., x, h | .typedIdent .., x, h | .branch .., x, h | .literal .., x, h | .string .., x, h | .call .., x, h | .dot .., x, h
  | .compr .., x, h | .forClause .., x, h | .ifClause .., x, h | .keyValue .., x, h | .dict .., x, h | .set .., x, h | .unary .., x, h | .binary .., x, h
  | .assign .., x, h | .paren .., x, h | .slice .., x, h | .index .., x, h | .lambda .., x, h | .cond .., x, h | .returnS .., x, h | .load .., x, h
  | .defS .., x, h | .file .., x, h | .ident .., x, h | .list .., x, h | .tuple .., x, h => by
    simp only [stmts1, List.mem_singleton] at h
    rw [h]; exact Nat.le_refl _
theorem size_stmts : ∀ (l : List Expr) (x : Expr), x ∈ stmts l → size x ≤ sizeL l
  | [], _, h => by cases h
  | s :: l, x, h => by
    rw [stmts, List.mem_append] at h
    rcases h with h | h
    · have := size_stmts1 s x h; simp only [sizeL]; omega
    · have := size_stmts l x h; simp only [sizeL]; omega
end

theorem own_assigned (x : Expr) : (own x).defs = assigned x := by
  cases x <;> rfl

theorem assigned_names (x : Expr) (n : Bytes) : n ∈ (assigned x).map (·.1) ↔ Sets x n := by
  cases x
  case assign c l p op lb r =>
    rw [assigned, List.map_map]
    have : ((fun q : Bytes × Bool => q.1) ∘ fun n => (n, containsComments (.assign c l p op lb r) b!"@unused" ||
      (!allUnderscored (Bzlenv.lvalues l) && underscored n))) = id := rfl
    rw [this, List.map_id, lvalues_iff]
    exact ⟨.assign _ _ _ _ _ _ _, fun h => (by cases h; assumption)⟩
  case forS c p v y b =>
    rw [assigned, List.map_map]
    have : ((fun q : Bytes × Bool => q.1) ∘ fun n => (n, underscored n)) = id := rfl
    rw [this, List.map_id, lvalues_iff]
    exact ⟨.loop _ _ _ _ _ _, fun h => (by cases h; assumption)⟩
  all_goals exact ⟨fun h => (by cases h), fun h => (by cases h)⟩

theorem defs_names (body : List Expr) (n : Bytes) : n ∈ (scanL body).defs.map (·.1) ↔ ∃ x ∈ stmts body, Sets x n := by
  rw [(scanL_own body).1, List.map_flatMap, List.mem_flatMap]
  simp only [own_assigned, assigned_names]

theorem symbols_iff (ps body : List Expr) (n : Bytes) : n ∈ symbols ps (scanL body) ↔ Variable ps body n := by
  unfold symbols Variable
  rw [List.mem_append, params_names, defs_names]

theorem funs_iff (body : List Expr) (n : Bytes) (m : Bool) : (n, m) ∈ (scanL body).funs ↔
    ∃ c p ps b cp fc fm t, .defS c p n ps b cp fc fm t ∈ stmts body ∧ m = containsComments (.defS c p n ps b cp fc fm t) b!"@unused" := by
  rw [(scanL_own body).2.1, List.mem_flatMap]
  constructor
  · rintro ⟨x, hx, h⟩
    cases x
    case defS c p k ps b cp fc fm t =>
      rw [own, scan1, List.mem_singleton, Prod.mk.injEq] at h
      obtain ⟨rfl, h⟩ := h
      exact ⟨c, p, ps, b, cp, fc, fm, t, hx, h⟩
    all_goals cases h
  · rintro ⟨c, p, ps, b, cp, fc, fm, t, hx, h⟩
    exact ⟨_, hx, by rw [own, scan1, List.mem_singleton, h]⟩

theorem funs_names (body : List Expr) (n : Bytes) : n ∈ (scanL body).funs.map (·.1) ↔ Function body n := by
  rw [List.mem_map]
  constructor
  · rintro ⟨⟨m, b⟩, h, rfl⟩
    obtain ⟨c, p, ps, b, cp, fc, fm, t, hx, _⟩ := (funs_iff _ _ _).1 h
    exact ⟨c, p, ps, b, cp, fc, fm, t, hx⟩
  · rintro ⟨c, p, ps, b, cp, fc, fm, t, hx⟩
    exact ⟨(n, _), (funs_iff _ _ _).2 ⟨c, p, ps, b, cp, fc, fm, t, hx, rfl⟩, rfl⟩

theorem mem_fromOuter (ps body : List Expr) (n : Bytes) : n ∈ fromOuter ps (scanL body) ↔
    n ∈ allUsed ps (scanL body) ∧ ¬ Variable ps body n ∧ ¬ Function body n := by
  unfold fromOuter
  rw [List.mem_filter, ← symbols_iff, ← funs_names]
  simp only [Bool.and_eq_true, Bool.not_eq_true', List.contains_eq_mem, decide_eq_false_iff_not]

/-- the used names of a scope -/
theorem allUsed_iff (n : Bytes) : ∀ (k : Nat) (ps body : List Expr), sizeL body ≤ k → (n ∈ allUsed ps (scanL body) ↔ Mentions n ps body) := by
  intro k
  induction k with
  | zero =>
    intro ps body hk
    cases body with
    | cons s l => have := Uninit.size_pos s; simp only [sizeL] at hk; omega
    | nil =>
      unfold allUsed
      rw [List.mem_append, defaults_iff]
      constructor
      · rintro (⟨c, l, p, op, lb, r, i, h1, h2, h3⟩ | h)
        · exact .default _ _ _ _ _ _ _ _ _ h1 h2 h3
        · cases h
      · intro h
        cases h with
        | default _ _ c l p op lb r i h1 h2 h3 => exact .inl ⟨c, l, p, op, lb, r, i, h1, h2, h3⟩
        | here _ _ _ _ h => cases h
        | nested _ _ _ _ _ _ _ _ _ _ _ h => cases h
  | succ k ih =>
    intro ps body hk
    unfold allUsed
    rw [List.mem_append, defaults_iff, (scanL_own body).2.2.1, List.mem_flatMap]
    constructor
    · rintro (⟨c, l, p, op, lb, r, i, h1, h2, h3⟩ | ⟨x, hx, h⟩)
      · exact .default _ _ _ _ _ _ _ _ _ h1 h2 h3
      · have hs := size_stmts _ _ hx
        by_cases hd : ∃ c p m ps b cp fc fm t, x = .defS c p m ps b cp fc fm t
        · obtain ⟨c, p, m, ps', b, cp, fc, fm, t, rfl⟩ := hd
          rw [own, scan1] at h
          obtain ⟨h1, h2, h3⟩ := (mem_fromOuter _ _ _).1 h
          exact .nested _ _ _ _ _ _ _ _ _ _ _ hx ((ih ps' b (by simp only [size] at hs; omega)).1 h1) h2 h3
        · have hl : ∀ c p m f t r fc, x ≠ .load c p m f t r fc := by
            intro c p m f t r fc he; subst he; cases h
          have hd' : ∀ c p n ps b cp fc fm t, x ≠ .defS c p n ps b cp fc fm t :=
            fun c p m ps b cp fc fm t he => hd ⟨c, p, m, ps, b, cp, fc, fm, t, he⟩
          have hu : (own x).used = (Uninit.used x).map (·.name) := by
            cases x <;> first | rfl | exact absurd rfl (hd' _ _ _ _ _ _ _ _ _) | exact absurd rfl (hl _ _ _ _ _ _ _)
          rw [hu] at h
          obtain ⟨i, hi, hn⟩ := List.mem_map.1 h
          exact .here _ _ x i hx ((used_iff x i hd' hl).1 hi) hn
    · intro h
      cases h with
      | default _ _ c l p op lb r i h1 h2 h3 => exact .inl ⟨c, l, p, op, lb, r, i, h1, h2, h3⟩
      | here _ _ x i hx hr hn =>
        refine .inr ⟨x, hx, ?_⟩
        have hd' : ∀ c p n ps b cp fc fm t, x ≠ .defS c p n ps b cp fc fm t := by
          intro c p n ps b cp fc fm t he; subst he; cases hr; rename_i h _ _; exact h _ _ _ _ _ _ _ _ _ rfl
        have hl : ∀ c p m f t r fc, x ≠ .load c p m f t r fc := by
          intro c p m f t r fc he; subst he; cases hr; rename_i h _; exact h _ _ _ _ _ _ _ rfl
        have hu : (own x).used = (Uninit.used x).map (·.name) := by
          cases x <;> first | rfl | exact absurd rfl (hd' _ _ _ _ _ _ _ _ _) | exact absurd rfl (hl _ _ _ _ _ _ _)
        rw [hu]
        exact List.mem_map.2 ⟨i, (used_iff x i hd' hl).2 hr, hn⟩
      | nested _ _ c p m ps' b cp fc fm t hx hm h2 h3 =>
        refine .inr ⟨_, hx, ?_⟩
        have hs := size_stmts _ _ hx
        rw [own, scan1]
        exact (mem_fromOuter _ _ _).2 ⟨(ih ps' b (by simp only [size] at hs; omega)).2 hm, h2, h3⟩

/-! ### Proofs: suppression -/

theorem firsts_iff (n : Bytes) (b : Bool) (l : List (Bytes × Bool)) : ∀ seen, (n, b) ∈ firsts seen l ↔
    n ∉ seen ∧ ∃ a c, l = a ++ (n, b) :: c ∧ ∀ q ∈ a, q.1 ≠ n := by
  induction l with
  | nil => intro seen; simp [firsts]
  | cons q l ih =>
    intro seen
    rw [firsts]
    by_cases hs : seen.contains q.1 = true
    · rw [if_pos hs, ih]
      have hm : q.1 ∈ seen := by simpa using hs
      constructor
      · rintro ⟨h1, a, c, rfl, h2⟩
        exact ⟨h1, q :: a, c, rfl, fun y hy => by
          rcases List.mem_cons.1 hy with rfl | hy
          · intro e; exact h1 (e ▸ hm)
          · exact h2 y hy⟩
      · rintro ⟨h1, a, c, he, h2⟩
        cases a with
        | nil =>
          simp only [List.nil_append, List.cons.injEq] at he
          rw [he.1] at hm; exact absurd hm h1
        | cons y a =>
          simp only [List.cons_append, List.cons.injEq] at he
          exact ⟨h1, a, c, he.2, fun z hz => h2 z (List.mem_cons_of_mem _ hz)⟩
    · rw [if_neg hs, List.mem_cons, ih]
      have hm : q.1 ∉ seen := by simpa using hs
      constructor
      · rintro (h | ⟨h1, a, c, rfl, h2⟩)
        · subst h
          exact ⟨hm, [], l, rfl, fun y hy => by cases hy⟩
        · rw [List.mem_cons, not_or] at h1
          refine ⟨h1.2, q :: a, c, rfl, fun y hy => ?_⟩
          rcases List.mem_cons.1 hy with rfl | hy
          · exact fun e => h1.1 e.symm
          · exact h2 y hy
      · rintro ⟨h1, a, c, he, h2⟩
        cases a with
        | nil =>
          simp only [List.nil_append, List.cons.injEq] at he
          exact .inl he.1.symm
        | cons y a =>
          simp only [List.cons_append, List.cons.injEq] at he
          refine .inr ⟨?_, a, c, he.2, fun z hz => h2 z (List.mem_cons_of_mem _ hz)⟩
          rw [List.mem_cons, not_or]
          exact ⟨fun e => h2 y List.mem_cons_self (by rw [← he.1]; exact e.symm), h1⟩

/-- the first entry of a name in concatenated lists is the first one of the first list that has the name -/
theorem first_flatMap {α} (g : α → List (Bytes × Bool)) (n : Bytes) (b : Bool) (hu : ∀ x, ∀ p ∈ g x, ∀ q ∈ g x, p.1 = q.1 → p = q) (l : List α) :
    (∃ a c, l.flatMap g = a ++ (n, b) :: c ∧ ∀ q ∈ a, q.1 ≠ n) ↔
      ∃ a x c, l = a ++ x :: c ∧ (∀ y ∈ a, n ∉ (g y).map (·.1)) ∧ (n, b) ∈ g x := by
  induction l with
  | nil => simp
  | cons x l ih =>
    rw [List.flatMap_cons]
    by_cases hx : n ∈ (g x).map (·.1)
    · -- decided by the first element
      constructor
      · rintro ⟨a, c, he, hn⟩
        refine ⟨[], x, l, rfl, fun y hy => (by cases hy), ?_⟩
        obtain ⟨q, hq, hqn⟩ := List.mem_map.1 hx
        rw [List.append_eq_append_iff] at he
        rcases he with ⟨a', ha, _⟩ | ⟨c', hc, _⟩
        · exact absurd hqn (hn q (by rw [ha]; simp [hq]))
        · cases c' with
          | nil =>
            rw [List.append_nil] at hc
            exact absurd hqn (hn q (hc ▸ hq))
          | cons z c' =>
            rename_i hz
            simp only [List.cons_append, List.cons.injEq] at hz
            rw [hc, hz.1]; simp
      · rintro ⟨a, y, c, he, hn, hm⟩
        cases a with
        | cons z a =>
          simp only [List.cons_append, List.cons.injEq] at he
          exact absurd hx (hn x (by simp [he.1]))
        | nil =>
          simp only [List.nil_append, List.cons.injEq] at he
          obtain ⟨rfl, rfl⟩ := he
          -- the first occurrence of the name in `g x`
          have : ∀ s : List (Bytes × Bool), (∀ p ∈ s, p.1 = n → p = (n, b)) → (n, b) ∈ s → ∃ a c, s = a ++ (n, b) :: c ∧ ∀ q ∈ a, q.1 ≠ n := by
            intro s
            induction s with
            | nil => intro _ h; cases h
            | cons p s ihs =>
              intro h1 h2
              by_cases hp : p.1 = n
              · exact ⟨[], s, by rw [h1 p List.mem_cons_self hp]; rfl, fun q hq => by cases hq⟩
              · rcases List.mem_cons.1 h2 with rfl | h2
                · exact absurd rfl hp
                · obtain ⟨a, c, rfl, h3⟩ := ihs (fun p hp => h1 p (List.mem_cons_of_mem _ hp)) h2
                  exact ⟨p :: a, c, rfl, fun q hq => by
                    rcases List.mem_cons.1 hq with rfl | hq
                    · exact hp
                    · exact h3 q hq⟩
          obtain ⟨a, c', h1, h2⟩ := this (g x) (fun p hp hpn => hu x p hp (n, b) hm hpn) hm
          exact ⟨a, c' ++ l.flatMap g, by rw [h1]; simp, h2⟩
    · have hx' : ∀ q ∈ g x, q.1 ≠ n := fun q hq e => hx (List.mem_map.2 ⟨q, hq, e⟩)
      constructor
      · rintro ⟨a, c, he, hn⟩
        rw [List.append_eq_append_iff] at he
        have : ∃ a' c', l.flatMap g = a' ++ (n, b) :: c' ∧ ∀ q ∈ a', q.1 ≠ n := by
          rcases he with ⟨a', ha, hb⟩ | ⟨c', hc, hd⟩
          · exact ⟨a', c, hb, fun q hq => hn q (by rw [ha]; simp [hq])⟩
          · cases c' with
            | nil => exact ⟨[], c, by simpa using hd.symm, fun q hq => by cases hq⟩
            | cons z c' =>
              simp only [List.cons_append, List.cons.injEq] at hd
              exact absurd rfl (hx' (n, b) (by rw [hc, hd.1]; simp))
        obtain ⟨a', y, c', he', h1, h2⟩ := ih.1 this
        exact ⟨x :: a', y, c', by rw [he']; rfl, fun z hz => by
          rcases List.mem_cons.1 hz with rfl | hz
          · exact hx
          · exact h1 z hz, h2⟩
      · rintro ⟨a, y, c, he, hn, hm⟩
        cases a with
        | nil =>
          simp only [List.nil_append, List.cons.injEq] at he
          rw [← he.1] at hm
          exact absurd rfl (hx' _ hm)
        | cons z a =>
          simp only [List.cons_append, List.cons.injEq] at he
          obtain ⟨a', c', h1, h2⟩ := ih.2 ⟨a, y, c, he.2, fun w hw => hn w (List.mem_cons_of_mem _ hw), hm⟩
          refine ⟨g x ++ a', c', by rw [h1]; simp, fun q hq => ?_⟩
          rcases List.mem_append.1 hq with hq | hq
          · exact hx' q hq
          · exact h2 q hq

theorem allUnderscored_iff (l : Expr) : allUnderscored (Bzlenv.lvalues l) = true ↔ ∀ m, Binds l m → Private m := by
  unfold allUnderscored
  rw [List.all_eq_true]
  simp only [lvalues_iff, private_iff]

theorem assigned_true (x : Expr) (n : Bytes) : (n, true) ∈ assigned x ↔ Sets x n ∧ Excused x n := by
  cases x
  case assign c l p op lb r =>
    rw [assigned, List.mem_map]
    constructor
    · rintro ⟨m, hm, h⟩
      simp only [Prod.mk.injEq] at h
      obtain ⟨rfl, h⟩ := h
      refine ⟨.assign _ _ _ _ _ _ _ ((lvalues_iff _ _).1 hm), ?_⟩
      rw [Bool.or_eq_true, Bool.and_eq_true, Bool.not_eq_true', kept_iff, private_iff] at h
      rcases h with h | ⟨h1, h2⟩
      · exact .marked _ _ _ _ _ _ _ h
      · have : ¬ ∀ m, Binds l m → Private m := by
          rw [← allUnderscored_iff]; simp [h1]
        simp only [Classical.not_forall] at this
        obtain ⟨k, hk, hp⟩ := this
        exact .partly _ _ _ _ _ _ _ k h2 hk hp
    · rintro ⟨hs, he⟩
      cases hs with
      | assign _ _ _ _ _ _ _ hb =>
        refine ⟨n, (lvalues_iff _ _).2 hb, ?_⟩
        rw [Prod.mk.injEq]
        refine ⟨rfl, ?_⟩
        rw [Bool.or_eq_true, Bool.and_eq_true, Bool.not_eq_true', kept_iff, private_iff]
        cases he with
        | marked _ _ _ _ _ _ _ h => exact .inl h
        | partly _ _ _ _ _ _ _ m h1 h2 h3 =>
          refine .inr ⟨?_, h1⟩
          rw [← Bool.not_eq_true, allUnderscored_iff]
          exact fun h => h3 (h m h2)
  case forS c p v y b =>
    rw [assigned, List.mem_map]
    constructor
    · rintro ⟨m, hm, h⟩
      simp only [Prod.mk.injEq] at h
      obtain ⟨rfl, h⟩ := h
      exact ⟨.loop _ _ _ _ _ _ ((lvalues_iff _ _).1 hm), .loop _ _ _ _ _ _ ((private_iff _).1 h)⟩
    · rintro ⟨hs, he⟩
      cases hs with
      | loop _ _ _ _ _ _ hb =>
        cases he with
        | loop _ _ _ _ _ _ h => exact ⟨n, (lvalues_iff _ _).2 hb, by rw [(private_iff _).2 h]⟩
  all_goals exact ⟨fun h => (by cases h), fun h => (by cases h.1)⟩

theorem assigned_unique (x : Expr) : ∀ p ∈ assigned x, ∀ q ∈ assigned x, p.1 = q.1 → p = q := by
  intro p hp q hq h
  cases x
  case assign =>
    rw [assigned, List.mem_map] at hp hq
    obtain ⟨a, _, rfl⟩ := hp
    obtain ⟨b, _, rfl⟩ := hq
    simp only at h
    rw [h]
  case forS =>
    rw [assigned, List.mem_map] at hp hq
    obtain ⟨a, _, rfl⟩ := hp
    obtain ⟨b, _, rfl⟩ := hq
    simp only at h
    rw [h]
  all_goals cases hp

theorem suppressed_iff (ps body : List Expr) (n : Bytes) : n ∈ suppressed ps (scanL body) ↔ Tolerated ps body n := by
  unfold suppressed
  rw [List.mem_map]
  have hmem : (∃ a, a ∈ List.filter (fun x => x.2) (params ps ++ (scanL body).funs ++ firsts ((params ps).map (·.1)) (scanL body).defs) ∧ a.1 = n) ↔
      (n, true) ∈ params ps ∨ (n, true) ∈ (scanL body).funs ∨ (n, true) ∈ firsts ((params ps).map (·.1)) (scanL body).defs := by
    rw [← or_assoc, ← List.mem_append, ← List.mem_append]
    constructor
    · rintro ⟨⟨m, b⟩, h, rfl⟩
      rw [List.mem_filter] at h
      obtain ⟨h, hb⟩ := h
      simp only at hb
      subst hb; exact h
    · intro h
      exact ⟨(n, true), List.mem_filter.2 ⟨h, rfl⟩, rfl⟩
  rw [hmem, params_iff, funs_iff, firsts_iff, params_names, (scanL_own body).1]
  simp only [own_assigned]
  rw [first_flatMap assigned n true assigned_unique]
  constructor
  · rintro (⟨p, hp, hn, h⟩ | ⟨c, p, ps', b, cp, fc, fm, t, hx, h⟩ | ⟨h1, a, x, c, h2, h3, h4⟩)
    · refine .param p hp hn ?_
      have h := h.symm
      rw [Bool.or_eq_true, Bool.or_eq_true, decide_eq_true_eq, private_iff, kept_iff, or_assoc] at h
      exact h
    · exact .function _ _ _ _ _ _ _ _ hx ((kept_iff _).1 h.symm)
    · obtain ⟨h5, h6⟩ := (assigned_true x n).1 h4
      refine .first a x c (fun p hp hn => h1 ⟨p, hp, hn⟩) h2 (fun y hy hs => h3 y hy ((assigned_names y n).2 hs)) h5 h6
  · intro h
    cases h with
    | param p hp hn h =>
      refine .inl ⟨p, hp, hn, ?_⟩
      symm
      rw [Bool.or_eq_true, Bool.or_eq_true, decide_eq_true_eq, private_iff, kept_iff, or_assoc]
      exact h
    | function c p ps' b cp fc fm t hx h => exact .inr (.inl ⟨c, p, ps', b, cp, fc, fm, t, hx, ((kept_iff _).2 h).symm⟩)
    | first a x b h1 h2 h3 h4 h5 =>
      exact .inr (.inr ⟨fun ⟨p, hp, hn⟩ => h1 p hp hn, a, x, b, h2, fun y hy hm => h3 y hy ((assigned_names y n).1 hm), (assigned_true x n).2 ⟨h4, h5⟩⟩)

/-! ### The findings -/

/-- what is reported of one scope -/
def Reported (top : Bool) (ps body : List Expr) (fn : Bool) (n : Bytes) : Prop :=
  (if fn then Function body n else Variable ps body n) ∧ ¬ Mentions n ps body ∧ ¬ Tolerated ps body n ∧ (top = true → Private n)

theorem reported_iff (top : Bool) (ps body : List Expr) (n : Bytes) : reported top ps (scanL body) n = true ↔
    ¬ Mentions n ps body ∧ ¬ Tolerated ps body n ∧ (top = true → Private n) := by
  unfold reported
  rw [← suppressed_iff, ← allUsed_iff n _ ps body (Nat.le_refl _), ← private_iff]
  simp only [Bool.and_eq_true, Bool.not_eq_true', List.contains_eq_mem, decide_eq_false_iff_not, Bool.and_eq_false_iff, and_assoc]
  cases top <;> simp

theorem mem_close (top : Bool) (scope : Expr) (ps body : List Expr) (sc : Expr) (fn : Bool) (n : Bytes) :
    (sc, fn, n) ∈ close top scope ps (scanL body) ↔ (sc, fn, n) ∈ (scanL body).found ∨ (sc = scope ∧ Reported top ps body fn n) := by
  unfold close Reported
  rw [List.mem_append, List.mem_append, List.mem_map, List.mem_map]
  simp only [List.mem_filter, List.mem_eraseDups, Prod.mk.injEq, reported_iff, symbols_iff, funs_names]
  constructor
  · rintro ((h | ⟨m, ⟨h1, h2⟩, rfl, rfl, rfl⟩) | ⟨m, ⟨h1, h2⟩, rfl, rfl, rfl⟩)
    · exact .inl h
    · exact .inr ⟨rfl, by simpa using h1, h2⟩
    · exact .inr ⟨rfl, by simpa using h1, h2⟩
  · rintro (h | ⟨rfl, h1, h2⟩)
    · exact .inl (.inl h)
    · cases fn with
      | false => exact .inl (.inr ⟨n, ⟨by simpa using h1, h2⟩, rfl, rfl, rfl⟩)
      | true => exact .inr ⟨n, ⟨by simpa using h1, h2⟩, rfl, rfl, rfl⟩

/-- the functions inside a body, at any depth -/
inductive Inside : List Expr → Expr → List Expr → List Expr → Prop
  | here (body c p n ps' b cp fc fm t) : .defS c p n ps' b cp fc fm t ∈ stmts body → Inside body (.defS c p n ps' b cp fc fm t) ps' b
  | deeper (body c p n ps' b cp fc fm t sc ps b') : .defS c p n ps' b cp fc fm t ∈ stmts body → Inside b sc ps b' → Inside body sc ps b'

theorem found_iff (sc : Expr) (fn : Bool) (n : Bytes) : ∀ (k : Nat) (body : List Expr), sizeL body ≤ k →
    ((sc, fn, n) ∈ (scanL body).found ↔ ∃ ps b, Inside body sc ps b ∧ Reported false ps b fn n) := by
  intro k
  induction k with
  | zero =>
    intro body hk
    cases body with
    | cons s l => have := Uninit.size_pos s; simp only [sizeL] at hk; omega
    | nil => exact ⟨fun h => (by cases h), fun ⟨_, _, h, _⟩ => (by cases h with | here _ _ _ _ _ _ _ _ _ _ h => cases h | deeper _ _ _ _ _ _ _ _ _ _ _ _ _ h => cases h)⟩
  | succ k ih =>
    intro body hk
    rw [(scanL_own body).2.2.2, List.mem_flatMap]
    constructor
    · rintro ⟨x, hx, h⟩
      have hs := size_stmts _ _ hx
      cases x
      case defS c p m ps b cp fc fm t =>
        rw [own, scan1] at h
        rcases (mem_close _ _ _ _ _ _ _).1 h with h' | ⟨rfl, h'⟩
        · obtain ⟨ps', b', h1, h2⟩ := (ih b (by simp only [size] at hs; omega)).1 h'
          exact ⟨ps', b', .deeper _ _ _ _ _ _ _ _ _ _ _ _ _ hx h1, h2⟩
        · exact ⟨ps, b, .here _ _ _ _ _ _ _ _ _ _ hx, h'⟩
      all_goals cases h
    · rintro ⟨ps, b, hi, hr⟩
      cases hi with
      | here _ c p m _ _ cp fc fm t hx =>
        refine ⟨_, hx, ?_⟩
        rw [own, scan1]
        exact (mem_close _ _ _ _ _ _ _).2 (.inr ⟨rfl, hr⟩)
      | deeper _ c p m ps' b' cp fc fm t _ _ _ hx hi =>
        refine ⟨_, hx, ?_⟩
        have hs := size_stmts _ _ hx
        rw [own, scan1]
        exact (mem_close _ _ _ _ _ _ _).2 (.inl ((ih b' (by simp only [size] at hs; omega)).2 ⟨ps, b, hi, hr⟩))

theorem inside_scope (f : File) (body sc ps b) (h : Inside body sc ps b) : ∀ sc0 ps0 top, Scope f sc0 ps0 body top → Scope f sc ps b false := by
  induction h with
  | here body c p n ps' b cp fc fm t hx => intro sc0 ps0 top h; exact .nested _ _ _ _ _ _ _ _ _ _ _ _ _ h hx
  | deeper body c p n ps' b cp fc fm t sc ps b' hx _ ih => intro sc0 ps0 top h; exact ih _ _ _ (.nested _ _ _ _ _ _ _ _ _ _ _ _ _ h hx)

theorem inside_snoc (body sc ps b) (h : Inside body sc ps b) : ∀ c p n ps' b' cp fc fm t, .defS c p n ps' b' cp fc fm t ∈ stmts b →
    Inside body (.defS c p n ps' b' cp fc fm t) ps' b' := by
  induction h with
  | here body c p n ps' b cp fc fm t hx => intro c' p' n' ps'' b'' cp' fc' fm' t' h'; exact .deeper _ _ _ _ _ _ _ _ _ _ _ _ _ hx (.here _ _ _ _ _ _ _ _ _ _ h')
  | deeper body c p n ps' b cp fc fm t sc ps b' hx _ ih =>
    intro c' p' n' ps'' b'' cp' fc' fm' t' h'
    exact .deeper _ _ _ _ _ _ _ _ _ _ _ _ _ hx (ih _ _ _ _ _ _ _ _ _ h')

theorem scope_inside (f : File) (sc ps body top) (h : Scope f sc ps body top) :
    (top = true ∧ sc = f.toExpr ∧ ps = [] ∧ body = f.stmts) ∨ (top = false ∧ Inside f.stmts sc ps body) := by
  induction h with
  | file => exact .inl ⟨rfl, rfl, rfl, rfl⟩
  | nested sc ps body top c p n ps' b cp fc fm t _ hx ih =>
    rcases ih with ⟨_, _, _, rfl⟩ | ⟨_, h⟩
    · exact .inr ⟨rfl, .here _ _ _ _ _ _ _ _ _ _ hx⟩
    · exact .inr ⟨rfl, inside_snoc _ _ _ _ h _ _ _ _ _ _ _ _ _ hx⟩

/-- **C74 (exact).** In every scope of the file — the file itself and every function in it — exactly those variables (and parameters), and
those functions, are reported that are defined in the scope and used neither in it nor in a function inside it that does not define the
name itself, unless they are tolerated, or could be used by other files: names of the file itself that do not start with `_`, if the file
can be loaded. -/
theorem C74_reported_exactly (exports : Bool) (f : File) (sc : Expr) (fn : Bool) (n : Bytes) :
    (sc, fn, n) ∈ unusedVariableWarning exports f ↔ ∃ ps body top, Scope f sc ps body top ∧
      (if fn then Function body n else Variable ps body n) ∧ ¬ Mentions n ps body ∧ ¬ Tolerated ps body n ∧
      ¬ (top = true ∧ exports = true ∧ ¬ Private n) := by
  unfold unusedVariableWarning
  rw [mem_close, found_iff sc fn n _ _ (Nat.le_refl _)]
  constructor
  · rintro (⟨ps, b, hi, h1, h2, h3, _⟩ | ⟨rfl, h1, h2, h3, h4⟩)
    · exact ⟨ps, b, false, inside_scope f _ _ _ _ hi _ _ _ .file, h1, h2, h3, fun h => by cases h.1⟩
    · exact ⟨[], f.stmts, true, .file, h1, h2, h3, fun h => h.2.2 (h4 h.2.1)⟩
  · rintro ⟨ps, body, top, hs, h1, h2, h3, h4⟩
    rcases scope_inside _ _ _ _ _ hs with ⟨rfl, rfl, rfl, rfl⟩ | ⟨rfl, hi⟩
    · exact .inr ⟨rfl, h1, h2, h3, fun he => Classical.byContradiction fun hp => h4 ⟨rfl, he, hp⟩⟩
    · exact .inl ⟨ps, body, hi, h1, h2, h3, fun h => by cases h⟩

/-! ### Cases -/

def id_ (n : Bytes) : Expr := .ident { name := n }
def set_ (n : Bytes) (e : Expr) : Expr := .assign {} (id_ n) {} b!"=" false e
def def_ (n : Bytes) (ps b : List Expr) : Expr := .defS {} {} n ps b {} false false .nil
def one : Expr := .literal {} {} b!"1"
def ret (e : Expr) : Expr := .returnS {} {} e

/-- an unused local variable next to used ones, in a nested function -/
example :
    let g := def_ b!"g" [id_ b!"p"] [set_ b!"x" one, set_ b!"y" one, ret (id_ b!"y")]
    let f := def_ b!"f" [] [g, ret (id_ b!"g")]
    (unusedVariableWarning true { stmts := [f] }).map (·.2) = [(false, b!"p"), (false, b!"x")] := by decide +kernel

/-- **C74 (finding).** Default values count as part of the function: in `def f(_x = _x)` the outer `_x` is reported as unused. -/
theorem C74_default_shadowed :
    let f := def_ b!"f" [set_ b!"_x" (id_ b!"_x")] [ret (id_ b!"_x")]
    (unusedVariableWarning true { stmts := [set_ b!"_x" one, f] }).map (·.2) = [(false, b!"_x")] := by decide +kernel

/-- **C74 (finding).** Type annotations are not uses: `_T` is reported in `def f(p: _T): return p`. -/
theorem C74_type_annotation :
    let f := def_ b!"f" [.typedIdent {} { name := b!"p" } (id_ b!"_T")] [ret (id_ b!"p")]
    (unusedVariableWarning true { stmts := [set_ b!"_T" one, f] }).map (·.2) = [(false, b!"_T")] := by decide +kernel

/-- **C74 (finding).** A variable that is only updated (`_x += 1`), is reported; a function that only calls itself is not. -/
theorem C74_update_and_recursion :
    (unusedVariableWarning true { stmts := [set_ b!"_x" one, .assign {} (id_ b!"_x") {} b!"+=" false one] }).map (·.2) =
      [(false, b!"_x")] ∧
    (unusedVariableWarning true { stmts := [def_ b!"_f" [] [ret (.call {} (id_ b!"_f") {} [] {} false false)]] }).map (·.2) = [] := by decide +kernel

end Verif.Props.Unused
