import Verif.Model.Uninit
import Verif.Proofs.Walk
import Verif.Props.Flow
/-
C72: the uninitialized-variable check reports exactly the identifiers that some run of the function reads before the variable is assigned.
-/
namespace Verif.Props.Uninit
open Verif Verif.Syntax Verif.Walk Verif.Uninit

/-! ## Specification: what an expression reads -/

/-- the names a target (`x`, `x, y`, `[x, (y, z)]`) binds -/
inductive Binds : Expr → Bytes → Prop
  | ident (i : IdentN) : Binds (.ident i) i.name
  | tuple (c nb s l e f m x n) : x ∈ l → Binds x n → Binds (.tuple c nb s l e f m) n
  | list (c s l e m x n) : x ∈ l → Binds x n → Binds (.list c s l e m) n

/-- nodes that need no special treatment -/
def Ordinary : Expr → Prop
  | .ident .. | .assign .. | .compr .. | .lambda .. => False
  | _ => True

/-- The identifiers of an expression (inside a comprehension or a lambda) that refer to the outside, where the names `B` are bound in between.
Names of keyword arguments are none. (The iterators of a comprehension are bound in all of it; so are the parameters of a lambda without a default.) -/
inductive Free : (Bytes → Prop) → Expr → IdentN → Prop
  | ident (B : Bytes → Prop) (i : IdentN) : ¬ B i.name → Free B (.ident i) i
  | keyword (B c l p op lb r i) : Free B r i → Free B (.assign c l p op lb r) i
  | compr (B : Bytes → Prop) (c cu lb b cl f e x i) : x ∈ b :: cl →
      Free (fun n => B n ∨ ∃ c p v q y, Expr.forClause c p v q y ∈ cl ∧ Binds v n) x i → Free B (.compr c cu lb b cl f e) i
  | lambda (B : Bytes → Prop) (c p ps b x i) : x ∈ ps ++ b → Free (fun n => B n ∨ ∃ y ∈ ps, Binds y n) x i → Free B (.lambda c p ps b) i
  | other (B e x i) : Ordinary e → x ∈ slots e → Free B x i → Free B e i

/-- the same in the header of a nested function (where also the names of keyword arguments count) -/
inductive Header : Expr → IdentN → Prop
  | ident (i : IdentN) : Header (.ident i) i
  | scope (e i) : (∃ c cu lb b cl f d, e = .compr c cu lb b cl f d) ∨ (∃ c p ps b, e = .lambda c p ps b) → Free (fun _ => False) e i → Header e i
  | assign (c l p op lb r x i) : x = l ∨ x = r → Header x i → Header (.assign c l p op lb r) i
  | other (e x i) : Ordinary e → x ∈ slots e → Header x i → Header e i

/-- what a parameter of a nested function reads: its default value -/
inductive Default : Expr → IdentN → Prop
  | assign (c l p op lb r i) : Header r i → Default (.assign c l p op lb r) i
  | assignL (c l p op lb r i) : Default l i → Default (.assign c l p op lb r) i
  | star (c p op x i) : Default x i → Default (.unary c p op x) i
  | other (e i) : (∀ j, e ≠ .ident j) → (∀ c j t, e ≠ .typedIdent c j t) → (∀ c l p op lb r, e ≠ .assign c l p op lb r) → (∀ c p op x, e ≠ .unary c p op x) →
      Header e i → Default e i

mutual
/-- the identifiers a simple statement or an expression of the function reads (in the scope of the function) -/
inductive Reads : Expr → IdentN → Prop
  | ident (i : IdentN) : Reads (.ident i) i
  | value (c l p op lb r i) : Reads r i → Reads (.assign c l p op lb r) i
  | place (c l p op lb r i) : ReadsPlace l i → Reads (.assign c l p op lb r) i
  | nested (c p n ps b cp fc fm t x i) : x ∈ ps → Default x i → Reads (.defS c p n ps b cp fc fm t) i
  | scope (e i) : (∃ c cu lb b cl f d, e = .compr c cu lb b cl f d) ∨ (∃ c p ps b, e = .lambda c p ps b) → Free (fun _ => False) e i → Reads e i
  | other (e x i) : Ordinary e → (∀ c p n ps b cp fc fm t, e ≠ .defS c p n ps b cp fc fm t) → x ∈ slots e → Reads x i → Reads e i
/-- what is read to find the place that is assigned: in `a[i].b, c = ...`, `a` and `i` -/
inductive ReadsPlace : Expr → IdentN → Prop
  | tuple (c nb s l e f m x i) : x ∈ l → ReadsPlace x i → ReadsPlace (.tuple c nb s l e f m) i
  | list (c s l e m x i) : x ∈ l → ReadsPlace x i → ReadsPlace (.list c s l e m) i
  | other (e i) : (∀ j, e ≠ .ident j) → (∀ c nb s l d f m, e ≠ .tuple c nb s l d f m) → (∀ c s l d m, e ≠ .list c s l d m) → Reads e i → ReadsPlace e i
end

/-! ## Specification: runs -/

/-- what happens to variables in a run -/
inductive Event where
  | read (i : IdentN) | write (n : Bytes)

/-- a list of reads of exactly these identifiers, in any order -/
def AllReads (R : IdentN → Prop) (t : List Event) : Prop := (∀ i, R i ↔ .read i ∈ t) ∧ ∀ n, Event.write n ∉ t
/-- a list of writes of exactly these names, in any order -/
def AllWrites (W : Bytes → Prop) (t : List Event) : Prop := (∀ n, W n ↔ .write n ∈ t) ∧ ∀ i, Event.read i ∉ t

/-- how a statement ends -/
inductive Out where
  | normal | jump (brk : Bool) | stop
deriving DecidableEq

/-- statements after which the next one runs, and which assign nothing -/
def Plain : Expr → Prop
  | .call _ (.ident n) .. => n.name ≠ b!"fail"
  | .returnS .. | .forS .. | .ifS .. | .assign .. => False
  | .branch _ tok _ => tok ≠ b!"break" ∧ tok ≠ b!"continue"
  | _ => True

mutual
/-- `Exec s t o`: a run of the statement with these reads and writes. Conditions may turn out either way, loops may run any number of times. The
arguments of `fail(...)` do not count as read; `x += y` counts as an assignment that does not read `x`. -/
inductive Exec : Expr → List Event → Out → Prop
  | plain (s t) : Plain s → AllReads (Reads s) t → Exec s t .normal
  | assign (c l p op lb r t w) : AllReads (Reads (.assign c l p op lb r)) t → AllWrites (Binds l) w → Exec (.assign c l p op lb r) (t ++ w) .normal
  | fail (c n s l e a b) : n.name = b!"fail" → Exec (.call c (.ident n) s l e a b) [] .stop
  | ret (c p r t) : AllReads (Reads (.returnS c p r)) t → Exec (.returnS c p r) t .stop
  | brk (c p) : Exec (.branch c b!"break" p) [] (.jump true)
  | cont (c p) : Exec (.branch c b!"continue" p) [] (.jump false)
  | ifTrue (c p cd t e f r tr o) : AllReads (Reads cd) r → ExecL t tr o → Exec (.ifS c p cd t e f) (r ++ tr) o
  | ifFalse (c p cd t e f r tr o) : AllReads (Reads cd) r → ExecL f tr o → Exec (.ifS c p cd t e f) (r ++ tr) o
  | loop (c p v x b r tr o) : AllReads (Reads x) r → Loop v b tr o → Exec (.forS c p v x b) (r ++ tr) o
/-- the same for a list of statements -/
inductive ExecL : List Expr → List Event → Out → Prop
  | nil : ExecL [] [] .normal
  | next (s l t t' o) : Exec s t .normal → ExecL l t' o → ExecL (s :: l) (t ++ t') o
  | stop (s l t o) : Exec s t o → o ≠ .normal → ExecL (s :: l) t o
/-- the iterations of a loop -/
inductive Loop : Expr → List Expr → List Event → Out → Prop
  | done (v b) : Loop v b [] .normal
  | next (v b w t o t' o') : AllWrites (Binds v) w → ExecL b t o → (o = .normal ∨ o = .jump false) → Loop v b t' o' → Loop v b (w ++ t ++ t') o'
  | brk (v b w t) : AllWrites (Binds v) w → ExecL b t (.jump true) → Loop v b (w ++ t) .normal
  | stop (v b w t) : AllWrites (Binds v) w → ExecL b t .stop → Loop v b (w ++ t) .stop
end

/-- the function can read the identifier when nothing has been assigned to the variable -/
def Exposed (t : List Event) (i : IdentN) : Prop := ∃ pre post, t = pre ++ .read i :: post ∧ .write i.name ∉ pre

/-- the statements assign the variable somewhere (not in a nested function) -/
inductive Assigns : Expr → Bytes → Prop
  | assign (c l p op lb r n) : Binds l n → Assigns (.assign c l p op lb r) n
  | forVar (c p v x b n) : Binds v n → Assigns (.forS c p v x b) n
  | forBody (c p v x b s n) : s ∈ b → Assigns s n → Assigns (.forS c p v x b) n
  | ifTrue (c p cd t e f s n) : s ∈ t → Assigns s n → Assigns (.ifS c p cd t e f) n
  | ifFalse (c p cd t e f s n) : s ∈ f → Assigns s n → Assigns (.ifS c p cd t e f) n

/-- the name of a parameter: `x`, `x: type`, `x = default`, `*x`, `**x` -/
inductive Named : Expr → Bytes → Prop
  | ident (i : IdentN) : Named (.ident i) i.name
  | typed (c) (i : IdentN) (t) : Named (.typedIdent c i t) i.name
  | default (c l p op b r n) : Named l n → Named (.assign c l p op b r) n
  | star (c p op x n) : Named x n → Named (.unary c p op x) n

/-! ## Names -/

mutual
theorem lvalues_iff (n : Bytes) : ∀ e : Expr, n ∈ Bzlenv.lvalues e ↔ Binds e n
  | .ident i => by
    rw [Bzlenv.lvalues, List.mem_singleton]
    exact ⟨fun h => h ▸ .ident i, fun h => (by cases h; rfl)⟩
  | .tuple c nb s l e f m => by
    rw [Bzlenv.lvalues, lvaluesL_iff n l]
    exact ⟨fun ⟨x, hx, h⟩ => .tuple _ _ _ _ _ _ _ x n hx h, fun h => (by cases h; exact ⟨_, ‹_›, ‹_›⟩)⟩
  | .list c s l e m => by
    rw [Bzlenv.lvalues, lvaluesL_iff n l]
    exact ⟨fun ⟨x, hx, h⟩ => .list _ _ _ _ _ x n hx h, fun h => (by cases h; exact ⟨_, ‹_›, ‹_›⟩)⟩
  | .nil | .commentBlock .. | .typedIdent .. | .branch .. | .literal .. | .string .. | .call .. | .dot .. | .compr .. | .forClause .. | .ifClause .. | .keyValue ..
  | .dict .. | .set .. | .unary .. | .binary .. | .assign .. | .paren .. | .slice .. | .index .. | .lambda .. | .cond .. | .load .. | .defS .. | .returnS ..
  | .forS .. | .ifS .. | .file .. => ⟨fun h => (by simp [Bzlenv.lvalues] at h), fun h => (by cases h)⟩
theorem lvaluesL_iff (n : Bytes) : ∀ l : List Expr, n ∈ Bzlenv.lvaluesL l ↔ ∃ x ∈ l, Binds x n
  | [] => by simp [Bzlenv.lvaluesL]
  | x :: l => by
    rw [Bzlenv.lvaluesL, List.mem_append, lvalues_iff n x, lvaluesL_iff n l]
    simp
end

theorem clauseNames_iff (n : Bytes) : ∀ l : List Expr, n ∈ clauseNames l ↔ ∃ c p v q y, Expr.forClause c p v q y ∈ l ∧ Binds v n
  | [] => by simp [clauseNames]
  | x :: l => by
    have ih := clauseNames_iff n l
    cases x
    case forClause c p v q y =>
      rw [clauseNames, List.mem_append, lvalues_iff, ih]
      constructor
      · rintro (h | ⟨c', p', v', q', y', h, hb⟩)
        · exact ⟨c, p, v, q, y, List.mem_cons_self, h⟩
        · exact ⟨c', p', v', q', y', List.mem_cons_of_mem _ h, hb⟩
      · rintro ⟨c', p', v', q', y', h, hb⟩
        rcases List.mem_cons.1 h with h | h
        · cases h; exact .inl hb
        · exact .inr ⟨c', p', v', q', y', h, hb⟩
    all_goals
      rw [show clauseNames (_ :: l) = clauseNames l from rfl, ih]
      constructor
      · rintro ⟨c', p', v', q', y', h, hb⟩
        exact ⟨c', p', v', q', y', List.mem_cons_of_mem _ h, hb⟩
      · rintro ⟨c', p', v', q', y', h, hb⟩
        rcases List.mem_cons.1 h with h | h
        · cases h
        · exact ⟨c', p', v', q', y', h, hb⟩

/-! ## Reads -/

theorem free_congr {A B : Bytes → Prop} (h : ∀ n, A n ↔ B n) {e : Expr} {i : IdentN} : Free A e i ↔ Free B e i := by
  have : A = B := funext fun n => propext (h n)
  rw [this]

theorem outer_iff : ∀ (n : Nat) (e : Expr) (sc : List Bytes) (i : IdentN), size e ≤ n → (i ∈ outerN n sc e ↔ Free (· ∈ sc) e i) := by
  intro n
  induction n with
  | zero => intro e sc i h; exact absurd h (by cases e <;> (unfold size; omega))
  | succ n ih =>
    intro e sc i hn
    have hflat : ∀ (sc : List Bytes), i ∈ (slots e).flatMap (outerN n sc) ↔ ∃ x ∈ slots e, Free (· ∈ sc) x i := by
      intro sc
      rw [List.mem_flatMap]
      constructor
      · rintro ⟨x, hx, h⟩
        exact ⟨x, hx, (ih x sc i (by have := size_slot_lt hx; omega)).1 h⟩
      · rintro ⟨x, hx, h⟩
        exact ⟨x, hx, (ih x sc i (by have := size_slot_lt hx; omega)).2 h⟩
    by_cases ho : Ordinary e
    · have : outerN (n + 1) sc e = (slots e).flatMap (outerN n sc) := by
        cases e <;> first | exact ho.elim | rfl
      rw [this, hflat]
      constructor
      · rintro ⟨x, hx, h⟩
        exact .other _ _ x i ho hx h
      · intro h
        cases h
        case other x _ hx h => exact ⟨x, hx, h⟩
        all_goals exact ho.elim
    · cases e <;> first | exact absurd trivial ho | skip
      case ident j =>
        rw [outerN]
        constructor
        · intro h
          split at h
          · cases h
          · rename_i hc
            rw [List.mem_singleton.1 h]
            exact .ident _ j (fun hm => hc (List.contains_iff_mem.2 hm))
        · intro h
          cases h
          case ident hb => rw [if_neg (fun e => hb (List.contains_iff_mem.1 e))]; exact List.mem_singleton.2 rfl
          case other x ho _ _ => exact ho.elim
      case assign c l p op lb r =>
        rw [outerN, ih r sc i (by unfold size at hn; omega)]
        constructor
        · exact fun h => .keyword _ _ _ _ _ _ _ _ h
        · intro h
          cases h
          case keyword h => exact h
          case other x ho _ _ => exact ho.elim
      case compr c cu lb b cl f e =>
        rw [outerN, hflat]
        have hc : ∀ n, n ∈ clauseNames cl ++ sc ↔ (n ∈ sc ∨ ∃ c p v q y, Expr.forClause c p v q y ∈ cl ∧ Binds v n) := by
          intro n
          rw [List.mem_append, clauseNames_iff, or_comm]
        constructor
        · rintro ⟨x, hx, h⟩
          exact .compr _ _ _ _ _ _ _ _ x i hx ((free_congr hc).1 h)
        · intro h
          cases h
          case compr x hx h => exact ⟨x, hx, (free_congr hc).2 h⟩
          case other x ho _ _ => exact ho.elim
      case lambda c p ps b =>
        rw [outerN, hflat]
        have hc : ∀ n, n ∈ Bzlenv.lvaluesL ps ++ sc ↔ (n ∈ sc ∨ ∃ y ∈ ps, Binds y n) := by
          intro n
          rw [List.mem_append, lvaluesL_iff, or_comm]
        constructor
        · rintro ⟨x, hx, h⟩
          exact .lambda _ _ _ _ _ x i hx ((free_congr hc).1 h)
        · intro h
          cases h
          case lambda x hx h => exact ⟨x, hx, (free_congr hc).2 h⟩
          case other x ho _ _ => exact ho.elim

theorem size_pos (e : Expr) : 0 < size e := by cases e <;> (unfold size; omega)

theorem free_nil {e : Expr} {i : IdentN} : Free (· ∈ ([] : List Bytes)) e i ↔ Free (fun _ => False) e i := free_congr fun n => by simp

theorem header_iff : ∀ (n : Nat) (e : Expr) (i : IdentN), 2 * size e ≤ n → (i ∈ plainN n e ↔ Header e i) := by
  intro n
  induction n with
  | zero => intro e i h; have := size_pos e; omega
  | succ n ih =>
    intro e i hn
    have hflat : i ∈ (slots e).flatMap (plainN n) ↔ ∃ x ∈ slots e, Header x i := by
      rw [List.mem_flatMap]
      constructor
      · rintro ⟨x, hx, h⟩
        exact ⟨x, hx, (ih x i (by have := size_slot_lt hx; omega)).1 h⟩
      · rintro ⟨x, hx, h⟩
        exact ⟨x, hx, (ih x i (by have := size_slot_lt hx; omega)).2 h⟩
    by_cases ho : Ordinary e
    · have : plainN (n + 1) e = (slots e).flatMap (plainN n) := by
        cases e <;> first | exact ho.elim | rfl
      rw [this, hflat]
      constructor
      · rintro ⟨x, hx, h⟩
        exact .other _ x i ho hx h
      · intro h
        cases h
        case other x _ hx h => exact ⟨x, hx, h⟩
        case scope hs _ =>
          rcases hs with ⟨_, _, _, _, _, _, _, rfl⟩ | ⟨_, _, _, _, rfl⟩ <;> exact ho.elim
        all_goals exact ho.elim
    · cases e <;> first | exact absurd trivial ho | skip
      case ident j =>
        rw [plainN, List.mem_singleton]
        constructor
        · rintro rfl; exact .ident _
        · intro h
          cases h
          case ident => rfl
          case scope hs _ => simp at hs
          case other ho _ _ => exact ho.elim
      case assign c l p op lb r =>
        rw [show plainN (n + 1) (.assign c l p op lb r) = (slots (.assign c l p op lb r)).flatMap (plainN n) from rfl, hflat]
        constructor
        · rintro ⟨x, hx, h⟩
          exact .assign _ _ _ _ _ _ x i (by simpa [slots] using hx) h
        · intro h
          cases h
          case assign x hx h => exact ⟨x, by simpa [slots] using hx, h⟩
          case scope hs _ => simp at hs
          case other ho _ _ => exact ho.elim
      case compr c cu lb b cl f e =>
        rw [plainN, outer_iff n _ [] i (by omega), free_nil]
        constructor
        · exact fun h => .scope _ i (.inl ⟨_, _, _, _, _, _, _, rfl⟩) h
        · intro h
          cases h
          case scope h => exact h
          case other ho _ _ => exact ho.elim
      case lambda c p ps b =>
        rw [plainN, outer_iff n _ [] i (by omega), free_nil]
        constructor
        · exact fun h => .scope _ i (.inr ⟨_, _, _, _, rfl⟩) h
        · intro h
          cases h
          case scope h => exact h
          case other ho _ _ => exact ho.elim

theorem default_iff : ∀ (n : Nat) (e : Expr) (i : IdentN), 2 * size e < n → (i ∈ paramN n e ↔ Default e i) := by
  intro n
  induction n with
  | zero => intro e i h; omega
  | succ n ih =>
    intro e i hn
    by_cases h1 : ∃ j, e = .ident j
    · obtain ⟨j, rfl⟩ := h1
      rw [paramN]
      refine ⟨fun h => (by cases h), fun h => ?_⟩
      cases h
      case other h _ _ _ _ => exact absurd rfl (h _)
    by_cases h2 : ∃ c j t, e = .typedIdent c j t
    · obtain ⟨c, j, t, rfl⟩ := h2
      rw [paramN]
      refine ⟨fun h => (by cases h), fun h => ?_⟩
      cases h
      case other h _ _ _ => exact absurd rfl (h _ _ _)
    by_cases h3 : ∃ c l p op lb r, e = .assign c l p op lb r
    · obtain ⟨c, l, p, op, lb, r, rfl⟩ := h3
      unfold size at hn
      rw [paramN, List.mem_append, ih l i (by omega), header_iff n r i (by omega)]
      constructor
      · rintro (h | h)
        · exact .assignL _ _ _ _ _ _ _ h
        · exact .assign _ _ _ _ _ _ _ h
      · intro h
        cases h
        case assign h => exact .inr h
        case assignL h => exact .inl h
        case other h _ _ => exact absurd rfl (h _ _ _ _ _ _)
    by_cases h4 : ∃ c p op x, e = .unary c p op x
    · obtain ⟨c, p, op, x, rfl⟩ := h4
      unfold size at hn
      rw [paramN, ih x i (by omega)]
      refine ⟨fun h => .star _ _ _ _ _ h, fun h => ?_⟩
      cases h
      case star h => exact h
      case other h _ => exact absurd rfl (h _ _ _ _)
    · have : paramN (n + 1) e = plainN n e := by
        cases e
        case ident => exact absurd ⟨_, rfl⟩ h1
        case typedIdent => exact absurd ⟨_, _, _, rfl⟩ h2
        case assign => exact absurd ⟨_, _, _, _, _, _, rfl⟩ h3
        case unary => exact absurd ⟨_, _, _, _, rfl⟩ h4
        all_goals rfl
      rw [this, header_iff n e i (by omega)]
      refine ⟨fun h => .other e i (fun j e' => h1 ⟨j, e'⟩) (fun c j t e' => h2 ⟨c, j, t, e'⟩) (fun c l p op lb r e' => h3 ⟨c, l, p, op, lb, r, e'⟩)
        (fun c p op x e' => h4 ⟨c, p, op, x, e'⟩) h, fun h => ?_⟩
      cases h
      case other h => exact h
      case assign => exact absurd ⟨_, _, _, _, _, _, rfl⟩ h3
      case assignL => exact absurd ⟨_, _, _, _, _, _, rfl⟩ h3
      case star => exact absurd ⟨_, _, _, _, rfl⟩ h4

theorem reads_place_iff : ∀ (n : Nat) (e : Expr) (i : IdentN), (2 * size e ≤ n → (i ∈ readsN n e ↔ Reads e i)) ∧ (2 * size e < n → (i ∈ placeN n e ↔ ReadsPlace e i)) := by
  intro n
  induction n with
  | zero => intro e i; have := size_pos e; exact ⟨fun h => by omega, fun h => by omega⟩
  | succ n ih =>
    intro e i
    refine ⟨fun hn => ?_, fun hn => ?_⟩
    · have hflat : i ∈ (slots e).flatMap (readsN n) ↔ ∃ x ∈ slots e, Reads x i := by
        rw [List.mem_flatMap]
        constructor
        · rintro ⟨x, hx, h⟩
          exact ⟨x, hx, ((ih x i).1 (by have := size_slot_lt hx; omega)).1 h⟩
        · rintro ⟨x, hx, h⟩
          exact ⟨x, hx, ((ih x i).1 (by have := size_slot_lt hx; omega)).2 h⟩
      by_cases hd : ∃ c p m ps b cp fc fm t, e = .defS c p m ps b cp fc fm t
      · obtain ⟨c, p, m, ps, b, cp, fc, fm, t, rfl⟩ := hd
        rw [readsN, List.mem_flatMap]
        have hs : ∀ x ∈ ps, 2 * size x < n := by
          intro x hx
          have := size_slot_lt (show x ∈ slots (.defS c p m ps b cp fc fm t) from List.mem_append_left _ hx)
          omega
        constructor
        · rintro ⟨x, hx, h⟩
          exact .nested _ _ _ _ _ _ _ _ _ x i hx ((default_iff n x i (hs x hx)).1 h)
        · intro h
          cases h
          case nested x hx h => exact ⟨x, hx, (default_iff n x i (hs x hx)).2 h⟩
          case scope hs _ => simp at hs
          case other h _ _ => exact absurd rfl (h _ _ _ _ _ _ _ _ _)
      by_cases ho : Ordinary e
      · have : readsN (n + 1) e = (slots e).flatMap (readsN n) := by
          cases e
          case defS => exact absurd ⟨_, _, _, _, _, _, _, _, _, rfl⟩ hd
          all_goals first | exact ho.elim | rfl
        rw [this, hflat]
        constructor
        · rintro ⟨x, hx, h⟩
          exact .other _ x i ho (fun c p n ps b cp fc fm t e' => hd ⟨c, p, n, ps, b, cp, fc, fm, t, e'⟩) hx h
        · intro h
          cases h
          case other x _ _ hx h => exact ⟨x, hx, h⟩
          case nested => exact absurd ⟨_, _, _, _, _, _, _, _, _, rfl⟩ hd
          case scope hs _ =>
            rcases hs with ⟨_, _, _, _, _, _, _, rfl⟩ | ⟨_, _, _, _, rfl⟩ <;> exact ho.elim
          all_goals exact ho.elim
      · cases e <;> first | exact absurd trivial ho | skip
        case ident j =>
          rw [readsN, List.mem_singleton]
          constructor
          · rintro rfl; exact .ident _
          · intro h
            cases h
            case ident => rfl
            case scope hs _ => simp at hs
            case other ho _ _ _ => exact ho.elim
        case assign c l p op lb r =>
          unfold size at hn
          rw [readsN, List.mem_append, (ih l i).2 (by have := size_pos r; omega), (ih r i).1 (by omega)]
          constructor
          · rintro (h | h)
            · exact .place _ _ _ _ _ _ i h
            · exact .value _ _ _ _ _ _ i h
          · intro h
            cases h
            case value h => exact .inr h
            case place h => exact .inl h
            case scope hs _ => simp at hs
            case other ho _ _ _ => exact ho.elim
        case compr c cu lb b cl f e =>
          rw [readsN, outer_iff n _ [] i (by omega), free_nil]
          constructor
          · exact fun h => .scope _ i (.inl ⟨_, _, _, _, _, _, _, rfl⟩) h
          · intro h
            cases h
            case scope h => exact h
            case other ho _ _ _ => exact ho.elim
        case lambda c p ps b =>
          rw [readsN, outer_iff n _ [] i (by omega), free_nil]
          constructor
          · exact fun h => .scope _ i (.inr ⟨_, _, _, _, rfl⟩) h
          · intro h
            cases h
            case scope h => exact h
            case other ho _ _ _ => exact ho.elim
    · have hflat : ∀ l : List Expr, (∀ x ∈ l, size x < size e) → (i ∈ l.flatMap (placeN n) ↔ ∃ x ∈ l, ReadsPlace x i) := by
        intro l hl
        rw [List.mem_flatMap]
        constructor
        · rintro ⟨x, hx, h⟩
          exact ⟨x, hx, ((ih x i).2 (by have := hl x hx; omega)).1 h⟩
        · rintro ⟨x, hx, h⟩
          exact ⟨x, hx, ((ih x i).2 (by have := hl x hx; omega)).2 h⟩
      by_cases h1 : ∃ j, e = .ident j
      · obtain ⟨j, rfl⟩ := h1
        rw [placeN]
        refine ⟨fun h => (by cases h), fun h => ?_⟩
        cases h
        case other h _ _ _ => exact absurd rfl (h _)
      by_cases h2 : ∃ c nb s l d f m, e = .tuple c nb s l d f m
      · obtain ⟨c, nb, s, l, d, f, m, rfl⟩ := h2
        rw [placeN, hflat l (fun x hx => size_slot_lt (show x ∈ slots (.tuple c nb s l d f m) from hx))]
        refine ⟨fun ⟨x, hx, h⟩ => .tuple _ _ _ _ _ _ _ x i hx h, fun h => ?_⟩
        cases h
        case tuple x hx h => exact ⟨x, hx, h⟩
        case other h _ _ => exact absurd rfl (h _ _ _ _ _ _ _)
      by_cases h3 : ∃ c s l d m, e = .list c s l d m
      · obtain ⟨c, s, l, d, m, rfl⟩ := h3
        rw [placeN, hflat l (fun x hx => size_slot_lt (show x ∈ slots (.list c s l d m) from hx))]
        refine ⟨fun ⟨x, hx, h⟩ => .list _ _ _ _ _ x i hx h, fun h => ?_⟩
        cases h
        case list x hx h => exact ⟨x, hx, h⟩
        case other h _ => exact absurd rfl (h _ _ _ _ _)
      · have : placeN (n + 1) e = readsN n e := by
          cases e
          case ident => exact absurd ⟨_, rfl⟩ h1
          case tuple => exact absurd ⟨_, _, _, _, _, _, _, rfl⟩ h2
          case list => exact absurd ⟨_, _, _, _, _, rfl⟩ h3
          all_goals rfl
        rw [this, (ih e i).1 (by omega)]
        refine ⟨fun h => .other e i (fun j e' => h1 ⟨j, e'⟩) (fun c nb s l d f m e' => h2 ⟨c, nb, s, l, d, f, m, e'⟩) (fun c s l d m e' => h3 ⟨c, s, l, d, m, e'⟩) h, fun h => ?_⟩
        cases h
        case other h => exact h
        case tuple => exact absurd ⟨_, _, _, _, _, _, _, rfl⟩ h2
        case list => exact absurd ⟨_, _, _, _, _, rfl⟩ h3

theorem reads_iff (e : Expr) (i : IdentN) : i ∈ reads e ↔ Reads e i := (reads_place_iff _ e i).1 (Nat.le_refl _)

/-! ## Traces -/

theorem exposed_append {a b : List Event} {i : IdentN} : Exposed (a ++ b) i ↔ Exposed a i ∨ (.write i.name ∉ a ∧ Exposed b i) := by
  constructor
  · rintro ⟨pre, post, h, hw⟩
    rcases List.append_eq_append_iff.1 h with ⟨c, h1, h2⟩ | ⟨c, h1, h2⟩
    · refine .inr ⟨fun h => hw (h1 ▸ List.mem_append_left _ h), c, post, h2, fun h => hw (h1 ▸ List.mem_append_right _ h)⟩
    · cases c with
      | nil =>
        rw [List.append_nil] at h1
        rw [List.nil_append] at h2
        subst h1
        exact .inr ⟨hw, [], post, h2.symm, by simp⟩
      | cons x c =>
        injection h2 with h3 h4
        subst h3
        exact .inl ⟨pre, c, h1, hw⟩
  · rintro (⟨pre, post, h, hw⟩ | ⟨hn, pre, post, h, hw⟩)
    · exact ⟨pre, post ++ b, by rw [h]; simp, hw⟩
    · exact ⟨a ++ pre, post, by rw [h]; simp, fun h => (List.mem_append.1 h).elim hn hw⟩

theorem exposed_nil {i : IdentN} : ¬ Exposed [] i := by
  rintro ⟨pre, post, h, -⟩
  simp at h

theorem exposed_reads {R : IdentN → Prop} {t : List Event} (h : AllReads R t) {i : IdentN} : Exposed t i ↔ R i := by
  constructor
  · rintro ⟨pre, post, rfl, -⟩
    exact (h.1 i).2 (by simp)
  · intro hr
    obtain ⟨pre, post, rfl⟩ := List.append_of_mem ((h.1 i).1 hr)
    exact ⟨pre, post, rfl, fun hw => h.2 _ (List.mem_append_left _ hw)⟩

theorem exposed_writes {W : Bytes → Prop} {t : List Event} (h : AllWrites W t) {i : IdentN} : ¬ Exposed t i := by
  rintro ⟨pre, post, rfl, -⟩
  exact h.2 i (by simp)

theorem someReads (e : Expr) : ∃ t, AllReads (Reads e) t :=
  ⟨(reads e).map .read, fun i => by rw [← reads_iff]; simp, fun n => by simp⟩

theorem someWrites (e : Expr) : ∃ t, AllWrites (Binds e) t :=
  ⟨(Bzlenv.lvalues e).map .write, fun i => by rw [← lvalues_iff]; simp, fun n => by simp⟩

theorem mem_missing {init : List Bytes} {e : Expr} {i : IdentN} : i ∈ missing init (reads e) ↔ i.name ∉ init ∧ Reads e i := by
  unfold missing
  rw [List.mem_filter, reads_iff]
  simp [and_comm]

/-! ## The analysis -/

/-- the result of the analysis of a statement is right -/
structure Right1 (s : Expr) : Prop where
  run : ∃ t o, Exec s t o
  term : ∀ init, (uninit1 init s).2.1 = true ↔ ¬ ∃ t, Exec s t .normal
  defs : ∀ init, (uninit1 init s).2.1 = false → ∀ n, n ∈ (uninit1 init s).2.2 ↔ ∀ t, Exec s t .normal → .write n ∈ t
  cb : ∀ init i, i ∈ (uninit1 init s).1 ↔ i.name ∉ init ∧ ∃ t o, Exec s t o ∧ Exposed t i

/-- and of a list of statements -/
structure RightL (l : List Expr) : Prop where
  run : ∃ t o, ExecL l t o
  term : ∀ init loc, (uninitL init loc l).2.1 = true ↔ ¬ ∃ t, ExecL l t .normal
  defs : ∀ init loc, (uninitL init loc l).2.1 = false → ∀ n, n ∈ (uninitL init loc l).2.2 ↔ n ∈ loc ∨ ∀ t, ExecL l t .normal → .write n ∈ t
  cb : ∀ init loc i, i ∈ (uninitL init loc l).1 ↔ i.name ∉ init ∧ ∃ t o, ExecL l t o ∧ Exposed t i

theorem plain_exec {s : Expr} (h : Plain s) {t : List Event} {o : Out} : Exec s t o ↔ o = .normal ∧ AllReads (Reads s) t := by
  constructor
  · intro he
    cases he
    case plain ht => exact ⟨rfl, ht⟩
    case fail hn => exact absurd hn h
    case brk => exact absurd rfl h.1
    case cont => exact absurd rfl h.2
    all_goals exact h.elim
  · rintro ⟨rfl, ht⟩
    exact .plain s t h ht

theorem right_plain {s : Expr} (h : Plain s) (hu : ∀ init, uninit1 init s = (missing init (reads s), false, [])) : Right1 s where
  run := (someReads s).imp fun t ht => ⟨.normal, .plain s t h ht⟩
  term init := by
    rw [hu]
    obtain ⟨t, ht⟩ := someReads s
    simp only [Bool.false_eq_true, false_iff, Classical.not_not]
    exact ⟨t, .plain s t h ht⟩
  defs init _ n := by
    rw [hu]
    obtain ⟨t, ht⟩ := someReads s
    simp only [List.not_mem_nil, false_iff]
    exact fun hc => ht.2 n (hc t (.plain s t h ht))
  cb init i := by
    rw [hu, mem_missing]
    refine and_congr_right fun _ => ?_
    constructor
    · intro hr
      obtain ⟨t, ht⟩ := someReads s
      exact ⟨t, .normal, .plain s t h ht, (exposed_reads ht).2 hr⟩
    · rintro ⟨t, o, he, hx⟩
      exact (exposed_reads ((plain_exec h).1 he).2).1 hx

theorem right_call (c x s l e a b) : Right1 (.call c x s l e a b) := by
  by_cases hf : Flow.isFail (.call c x s l e a b) = true
  · have : ∃ n, x = .ident n ∧ n.name = b!"fail" := by
      cases x <;> simp [Flow.isFail] at hf
      exact ⟨_, rfl, hf⟩
    obtain ⟨n, rfl, hn⟩ := this
    have hu : ∀ init, uninit1 init (.call c (.ident n) s l e a b) = ([], true, []) := fun init => by rw [uninit1, if_pos hf]
    have hx : ∀ t o, Exec (.call c (.ident n) s l e a b) t o → t = [] ∧ o = .stop := by
      intro t o h
      cases h
      case plain hp _ => exact absurd hn hp
      case fail => exact ⟨rfl, rfl⟩
    refine ⟨⟨_, _, .fail _ _ _ _ _ _ _ hn⟩, fun init => ?_, fun init h => ?_, fun init i => ?_⟩
    · rw [hu]
      simp only [true_iff]
      rintro ⟨t, h⟩
      cases (hx _ _ h).2
    · rw [hu] at h; cases h
    · rw [hu]
      simp only [List.not_mem_nil, false_iff]
      rintro ⟨-, t, o, h, he⟩
      rw [(hx _ _ h).1] at he
      exact exposed_nil he
  · refine right_plain ?_ fun init => by rw [uninit1, if_neg hf]
    cases x
    case ident n => simpa [Flow.isFail, Plain] using hf
    all_goals trivial

theorem right_return (c p r) : Right1 (.returnS c p r) := by
  have hx : ∀ t o, Exec (.returnS c p r) t o ↔ o = .stop ∧ AllReads (Reads (.returnS c p r)) t := by
    intro t o
    constructor
    · intro h
      cases h
      case plain hp _ => exact hp.elim
      case ret h => exact ⟨rfl, h⟩
    · rintro ⟨rfl, h⟩; exact .ret _ _ _ _ h
  obtain ⟨t, ht⟩ := someReads (.returnS c p r)
  refine ⟨⟨t, _, (hx _ _).2 ⟨rfl, ht⟩⟩, fun init => ?_, fun init h => ?_, fun init i => ?_⟩
  · rw [uninit1]
    simp only [true_iff]
    rintro ⟨t, h⟩
    cases ((hx _ _).1 h).1
  · rw [uninit1] at h; cases h
  · rw [uninit1, mem_missing]
    refine and_congr_right fun _ => ?_
    constructor
    · exact fun hr => ⟨t, .stop, (hx _ _).2 ⟨rfl, ht⟩, (exposed_reads ht).2 hr⟩
    · rintro ⟨t, o, he, hx'⟩
      exact (exposed_reads ((hx _ _).1 he).2).1 hx'

theorem right_branch (c tok p) : Right1 (.branch c tok p) := by
  by_cases hp : Plain (.branch c tok p)
  · refine right_plain hp fun init => ?_
    have h1 : (tok == b!"break" || tok == b!"continue") = false := by
      rw [Bool.or_eq_false_iff]
      exact ⟨beq_false_of_ne hp.1, beq_false_of_ne hp.2⟩
    rw [uninit1, h1]
    rfl
  · have htok : tok = b!"break" ∨ tok = b!"continue" := by
      by_cases h1 : tok = b!"break"
      · exact .inl h1
      · exact .inr (Decidable.byContradiction fun h2 => hp ⟨h1, h2⟩)
    have hu : ∀ init, uninit1 init (.branch c tok p) = ([], true, []) := by
      intro init
      rw [uninit1]
      rcases htok with rfl | rfl <;> rfl
    have hx : ∀ t o, Exec (.branch c tok p) t o → t = [] ∧ o ≠ .normal := by
      intro t o h
      cases h
      case plain hp' _ => exact absurd hp' hp
      case brk => exact ⟨rfl, by simp⟩
      case cont => exact ⟨rfl, by simp⟩
    refine ⟨?_, fun init => ?_, fun init h => ?_, fun init i => ?_⟩
    · rcases htok with rfl | rfl
      · exact ⟨_, _, .brk _ _⟩
      · exact ⟨_, _, .cont _ _⟩
    · rw [hu]
      simp only [true_iff]
      rintro ⟨t, h⟩
      exact (hx _ _ h).2 rfl
    · rw [hu] at h; cases h
    · rw [hu]
      simp only [List.not_mem_nil, false_iff]
      rintro ⟨-, t, o, h, he⟩
      rw [(hx _ _ h).1] at he
      exact exposed_nil he

theorem right_assign (c l p op lb r) : Right1 (.assign c l p op lb r) := by
  have hx : ∀ t o, Exec (.assign c l p op lb r) t o ↔ o = .normal ∧ ∃ a w, t = a ++ w ∧ AllReads (Reads (.assign c l p op lb r)) a ∧ AllWrites (Binds l) w := by
    intro t o
    constructor
    · intro h
      cases h
      case plain hp _ => exact hp.elim
      case assign => exact ⟨rfl, _, _, rfl, ‹_›, ‹_›⟩
    · rintro ⟨rfl, a, w, rfl, h1, h2⟩; exact .assign _ _ _ _ _ _ _ _ h1 h2
  obtain ⟨t, ht⟩ := someReads (.assign c l p op lb r)
  obtain ⟨w, hw⟩ := someWrites l
  have hr := (hx _ _).2 ⟨rfl, t, w, rfl, ht, hw⟩
  refine ⟨⟨_, _, hr⟩, fun init => ?_, fun init _ n => ?_, fun init i => ?_⟩
  · rw [uninit1]
    simp only [Bool.false_eq_true, false_iff, Classical.not_not]
    exact ⟨_, hr⟩
  · rw [uninit1, lvalues_iff]
    constructor
    · intro hb t he
      obtain ⟨-, a, w, rfl, h1, h2⟩ := (hx _ _).1 he
      exact List.mem_append_right _ ((h2.1 n).1 hb)
    · intro h
      rcases List.mem_append.1 (h _ hr) with h | h
      · exact absurd h (ht.2 n)
      · exact (hw.1 n).2 h
  · rw [uninit1, mem_missing]
    refine and_congr_right fun _ => ?_
    constructor
    · exact fun h => ⟨_, _, hr, exposed_append.2 (.inl ((exposed_reads ht).2 h))⟩
    · rintro ⟨t, o, he, hx'⟩
      obtain ⟨-, a, w, rfl, h1, h2⟩ := (hx _ _).1 he
      rcases exposed_append.1 hx' with h | ⟨-, h⟩
      · exact (exposed_reads h1).1 h
      · exact absurd h (exposed_writes h2)

/-- a read in some iteration can be reached in the first one -/
theorem loop_exposed {v : Expr} {b : List Expr} {t : List Event} {o : Out} {i : IdentN} (h : Loop v b t o) : Exposed t i → ¬ Binds v i.name ∧ ∃ t o, ExecL b t o ∧ Exposed t i := by
  have body : ∀ {w t : List Event} {o : Out}, AllWrites (Binds v) w → ExecL b t o → Exposed (w ++ t) i → ¬ Binds v i.name ∧ ∃ t o, ExecL b t o ∧ Exposed t i := by
    intro w t o hw he hx
    rcases exposed_append.1 hx with h | ⟨h1, h2⟩
    · exact absurd h (exposed_writes hw)
    · exact ⟨fun hb => h1 ((hw.1 _).1 hb), _, _, he, h2⟩
  refine Loop.rec (motive_1 := fun _ _ _ _ => True) (motive_2 := fun _ _ _ _ => True)
    (motive_3 := fun v' b' t _ _ => v' = v → b' = b → Exposed t i → ¬ Binds v i.name ∧ ∃ t o, ExecL b t o ∧ Exposed t i)
    ?_ ?_ ?_ ?_ ?_ ?_ ?_ ?_ ?_ ?_ ?_ ?_ ?_ ?_ ?_ ?_ h rfl rfl
  case refine_13 => intro _ _ _ _ h; exact absurd h exposed_nil
  case refine_14 =>
    rintro v b w t o t' o' hw he _ _ _ ih rfl rfl hx
    rcases exposed_append.1 hx with h | ⟨-, h⟩
    · exact body hw he h
    · exact ih rfl rfl h
  case refine_15 => rintro v b w t hw he _ rfl rfl hx; exact body hw he hx
  case refine_16 => rintro v b w t hw he _ rfl rfl hx; exact body hw he hx
  all_goals intros; trivial

theorem right_for {c p v x b} (hb : RightL b) : Right1 (.forS c p v x b) := by
  have hx : ∀ t o, Exec (.forS c p v x b) t o ↔ ∃ r tr, t = r ++ tr ∧ AllReads (Reads x) r ∧ Loop v b tr o := by
    intro t o
    constructor
    · intro h
      cases h
      case plain hp _ => exact hp.elim
      case loop h1 h2 => exact ⟨_, _, rfl, h1, h2⟩
    · rintro ⟨r, tr, rfl, h1, h2⟩; exact .loop _ _ _ _ _ _ _ _ h1 h2
  obtain ⟨r, hr⟩ := someReads x
  obtain ⟨w, hw⟩ := someWrites v
  have hz : Exec (.forS c p v x b) (r ++ []) .normal := (hx _ _).2 ⟨r, [], rfl, hr, .done v b⟩
  refine ⟨⟨_, _, hz⟩, fun init => ?_, fun init _ n => ?_, fun init i => ?_⟩
  · rw [uninit1]
    simp only [Bool.false_eq_true, false_iff, Classical.not_not]
    exact ⟨_, hz⟩
  · rw [uninit1]
    simp only [List.not_mem_nil, false_iff]
    intro h
    have := h _ hz
    rw [List.append_nil] at this
    exact hr.2 n this
  · rw [uninit1, List.mem_append, mem_missing, hb.cb, List.mem_append, lvalues_iff]
    constructor
    · rintro (⟨h1, h2⟩ | ⟨h1, t, o, he, hx'⟩)
      · exact ⟨h1, _, _, hz, exposed_append.2 (.inl ((exposed_reads hr).2 h2))⟩
      · refine ⟨fun h => h1 (.inr h), ?_⟩
        have hout : ∃ tr o, Loop v b tr o ∧ Exposed tr i := by
          have hwt : Exposed (w ++ t) i := exposed_append.2 (.inr ⟨fun h => h1 (.inl ((hw.1 _).2 h)), hx'⟩)
          cases o with
          | normal => exact ⟨_, _, .next v b w t .normal [] .normal hw he (.inl rfl) (.done v b), exposed_append.2 (.inl hwt)⟩
          | jump k =>
            cases k with
            | false => exact ⟨_, _, .next v b w t (.jump false) [] .normal hw he (.inr rfl) (.done v b), exposed_append.2 (.inl hwt)⟩
            | true => exact ⟨_, _, .brk v b w t hw he, hwt⟩
          | stop => exact ⟨_, _, .stop v b w t hw he, hwt⟩
        obtain ⟨tr, o', hl, hxt⟩ := hout
        exact ⟨_, _, (hx _ _).2 ⟨r, tr, rfl, hr, hl⟩, exposed_append.2 (.inr ⟨hr.2 _, hxt⟩)⟩
    · rintro ⟨h1, t, o, he, hx'⟩
      obtain ⟨r', tr, rfl, hr', hl⟩ := (hx _ _).1 he
      rcases exposed_append.1 hx' with h | ⟨-, h⟩
      · exact .inl ⟨h1, (exposed_reads hr').1 h⟩
      · obtain ⟨h2, h3⟩ := loop_exposed hl h
        exact .inr ⟨fun h => h.elim h2 h1, h3⟩

theorem right_if {c p cd t e f} (ht : RightL t) (hf : RightL f) : Right1 (.ifS c p cd t e f) := by
  have hx : ∀ tr o, Exec (.ifS c p cd t e f) tr o ↔ ∃ r tr', tr = r ++ tr' ∧ AllReads (Reads cd) r ∧ (ExecL t tr' o ∨ ExecL f tr' o) := by
    intro tr o
    constructor
    · intro h
      cases h
      case plain hp _ => exact hp.elim
      case ifTrue h1 h2 => exact ⟨_, _, rfl, h1, .inl h2⟩
      case ifFalse h1 h2 => exact ⟨_, _, rfl, h1, .inr h2⟩
    · rintro ⟨r, tr, rfl, h1, h2 | h2⟩
      · exact .ifTrue _ _ _ _ _ _ _ _ _ h1 h2
      · exact .ifFalse _ _ _ _ _ _ _ _ _ h1 h2
  obtain ⟨r, hr⟩ := someReads cd
  have hcb : ∀ init i, i ∈ missing init (reads cd) ++ (uninitL init [] t).1 ++ (uninitL init [] f).1 ↔ i.name ∉ init ∧ ∃ tr o, Exec (.ifS c p cd t e f) tr o ∧ Exposed tr i := by
    intro init i
    rw [List.mem_append, List.mem_append, mem_missing, ht.cb, hf.cb]
    constructor
    · rintro ((⟨h1, h2⟩ | ⟨h1, tr, o, h2, h3⟩) | ⟨h1, tr, o, h2, h3⟩)
      · obtain ⟨tr, o, h⟩ := ht.run
        exact ⟨h1, _, o, (hx _ _).2 ⟨r, tr, rfl, hr, .inl h⟩, exposed_append.2 (.inl ((exposed_reads hr).2 h2))⟩
      · exact ⟨h1, _, o, (hx _ _).2 ⟨r, tr, rfl, hr, .inl h2⟩, exposed_append.2 (.inr ⟨hr.2 _, h3⟩)⟩
      · exact ⟨h1, _, o, (hx _ _).2 ⟨r, tr, rfl, hr, .inr h2⟩, exposed_append.2 (.inr ⟨hr.2 _, h3⟩)⟩
    · rintro ⟨h1, tr, o, h2, h3⟩
      obtain ⟨r', tr', rfl, hr', h⟩ := (hx _ _).1 h2
      rcases exposed_append.1 h3 with h3 | ⟨-, h3⟩
      · exact .inl (.inl ⟨h1, (exposed_reads hr').1 h3⟩)
      · rcases h with h | h
        · exact .inl (.inr ⟨h1, _, _, h, h3⟩)
        · exact .inr ⟨h1, _, _, h, h3⟩
  have hnorm : (∃ tr, Exec (.ifS c p cd t e f) tr .normal) ↔ (∃ tr, ExecL t tr .normal) ∨ ∃ tr, ExecL f tr .normal := by
    constructor
    · rintro ⟨tr, h⟩
      obtain ⟨r', tr', -, -, h⟩ := (hx _ _).1 h
      exact h.imp (fun h => ⟨_, h⟩) (fun h => ⟨_, h⟩)
    · rintro (⟨tr, h⟩ | ⟨tr, h⟩)
      · exact ⟨_, (hx _ _).2 ⟨r, tr, rfl, hr, .inl h⟩⟩
      · exact ⟨_, (hx _ _).2 ⟨r, tr, rfl, hr, .inr h⟩⟩
  have hall : ∀ n, (∀ tr, Exec (.ifS c p cd t e f) tr .normal → .write n ∈ tr) ↔ (∀ tr, ExecL t tr .normal → .write n ∈ tr) ∧ ∀ tr, ExecL f tr .normal → .write n ∈ tr := by
    intro n
    constructor
    · intro h
      constructor
      · intro tr he
        exact (List.mem_append.1 (h _ ((hx _ _).2 ⟨r, tr, rfl, hr, .inl he⟩))).resolve_left (hr.2 n)
      · intro tr he
        exact (List.mem_append.1 (h _ ((hx _ _).2 ⟨r, tr, rfl, hr, .inr he⟩))).resolve_left (hr.2 n)
    · rintro ⟨h1, h2⟩ tr he
      obtain ⟨r', tr', rfl, -, h⟩ := (hx _ _).1 he
      exact List.mem_append_right _ (h.elim (h1 _) (h2 _))
  have t1 := fun init => ht.term init []
  have t2 := fun init => hf.term init []
  have d1 := fun init => ht.defs init []
  have d2 := fun init => hf.defs init []
  refine ⟨?_, fun init => ?_, fun init => ?_, fun init i => ?_⟩
  · obtain ⟨tr, o, h⟩ := ht.run
    exact ⟨_, _, (hx _ _).2 ⟨r, tr, rfl, hr, .inl h⟩⟩
  · have t1 := t1 init
    have t2 := t2 init
    rw [hnorm, uninit1]
    cases h1 : (uninitL init [] t).2.1 <;> cases h2 : (uninitL init [] f).2.1 <;> simp only [h1, h2, Bool.and_self, Bool.and_true, Bool.and_false, if_true, Bool.false_eq_true, if_false, false_iff, true_iff] at t1 t2 ⊢
    · exact fun h => h (.inl (Classical.not_not.1 t1))
    · exact fun h => h (.inl (Classical.not_not.1 t1))
    · exact fun h => h (.inr (Classical.not_not.1 t2))
    · exact fun h => h.elim t1 t2
  · have t1 := t1 init
    have t2 := t2 init
    have d1 := d1 init
    have d2 := d2 init
    intro hterm n
    rw [hall]
    rw [uninit1] at hterm ⊢
    cases h1 : (uninitL init [] t).2.1 <;> cases h2 : (uninitL init [] f).2.1 <;> simp only [h1, h2, Bool.and_self, Bool.and_true, Bool.and_false, if_true, Bool.false_eq_true, if_false, false_iff, true_iff] at t1 t2 hterm ⊢
    · rw [List.mem_filter, d1 h1, List.contains_iff_mem, d2 h2]
      simp
    · rw [d1 h1]
      simp only [List.not_mem_nil, false_or]
      exact ⟨fun h => ⟨h, fun tr he => absurd ⟨tr, he⟩ t2⟩, fun h => h.1⟩
    · rw [d2 h2]
      simp only [List.not_mem_nil, false_or]
      exact ⟨fun h => ⟨fun tr he => absurd ⟨tr, he⟩ t1, h⟩, fun h => h.2⟩
    · cases hterm
  · rw [← hcb, uninit1]
    split
    · rfl
    · split
      · rfl
      · split <;> rfl

theorem right_cons {s l} (hs : Right1 s) (hl : RightL l) : RightL (s :: l) := by
  have hx : ∀ t o, ExecL (s :: l) t o ↔ (o ≠ .normal ∧ Exec s t o) ∨ ∃ a b, t = a ++ b ∧ Exec s a .normal ∧ ExecL l b o := by
    intro t o
    constructor
    · intro h
      cases h
      case next h1 h2 => exact .inr ⟨_, _, rfl, h1, h2⟩
      case stop => exact .inl ⟨‹_›, ‹_›⟩
    · rintro (⟨h1, h2⟩ | ⟨a, b, rfl, h1, h2⟩)
      · exact .stop _ _ _ _ h2 h1
      · exact .next _ _ _ _ _ h1 h2
  -- every run of the statement is the beginning of one of the list
  have hext : ∀ t o, Exec s t o → ∃ b o', ExecL (s :: l) (t ++ b) o' := by
    intro t o h
    by_cases ho : o = .normal
    · subst ho
      obtain ⟨b, o', hb⟩ := hl.run
      exact ⟨b, o', (hx _ _).2 (.inr ⟨t, b, rfl, h, hb⟩)⟩
    · exact ⟨[], o, by rw [List.append_nil]; exact (hx _ _).2 (.inl ⟨ho, h⟩)⟩
  refine ⟨?_, fun init loc => ?_, fun init loc => ?_, fun init loc i => ?_⟩
  · obtain ⟨t, o, h⟩ := hs.run
    obtain ⟨b, o', h⟩ := hext t o h
    exact ⟨_, _, h⟩
  · rw [uninitL]
    dsimp only
    cases ht : (uninit1 init s).2.1 with
    | true =>
      simp only [if_true, true_iff]
      rintro ⟨t, h⟩
      rcases (hx _ _).1 h with ⟨h, -⟩ | ⟨a, b, -, h, -⟩
      · exact h rfl
      · exact (hs.term init).1 ht ⟨a, h⟩
    | false =>
      have hn : ∃ t, Exec s t .normal := Classical.not_not.1 fun h => by
        have := (hs.term init).2 h
        rw [ht] at this; cases this
      obtain ⟨a, ha⟩ := hn
      simp only [Bool.false_eq_true, if_false]
      rw [hl.term]
      constructor
      · rintro h ⟨t, he⟩
        rcases (hx _ _).1 he with ⟨h', -⟩ | ⟨a, b, -, -, h'⟩
        · exact h' rfl
        · exact h ⟨b, h'⟩
      · rintro h ⟨b, hb⟩
        exact h ⟨_, (hx _ _).2 (.inr ⟨a, b, rfl, ha, hb⟩)⟩
  · rw [uninitL]
    dsimp only
    cases ht : (uninit1 init s).2.1 with
    | true => simp only [if_true]; intro h; cases h
    | false =>
      simp only [Bool.false_eq_true, if_false]
      intro hterm n
      rw [hl.defs _ _ hterm, List.mem_append, hs.defs init ht]
      constructor
      · rintro ((h | h) | h)
        · refine .inr fun t he => ?_
          rcases (hx _ _).1 he with ⟨h', -⟩ | ⟨a, b, rfl, ha, hb⟩
          · exact absurd rfl h'
          · exact List.mem_append_left _ (h a ha)
        · exact .inl h
        · refine .inr fun t he => ?_
          rcases (hx _ _).1 he with ⟨h', -⟩ | ⟨a, b, rfl, ha, hb⟩
          · exact absurd rfl h'
          · exact List.mem_append_right _ (h b hb)
      · rintro (h | h)
        · exact .inl (.inr h)
        · refine Classical.byContradiction fun hc => ?_
          have h1 : ∃ a, Exec s a .normal ∧ Event.write n ∉ a := Classical.byContradiction fun h' => hc (.inl (.inl fun t he => Classical.byContradiction fun hw => h' ⟨t, he, hw⟩))
          have h2 : ∃ a, ExecL l a .normal ∧ Event.write n ∉ a := Classical.byContradiction fun h' => hc (.inr fun t he => Classical.byContradiction fun hw => h' ⟨t, he, hw⟩)
          obtain ⟨a, ha, wa⟩ := h1
          obtain ⟨b, hb, wb⟩ := h2
          exact (List.mem_append.1 (h _ ((hx _ _).2 (.inr ⟨a, b, rfl, ha, hb⟩)))).elim wa wb
  · have hfirst : ∀ {t o}, Exec s t o → Exposed t i → ∃ t o, ExecL (s :: l) t o ∧ Exposed t i := by
      intro t o he hxp
      obtain ⟨b, o', h⟩ := hext t o he
      exact ⟨_, _, h, exposed_append.2 (.inl hxp)⟩
    rw [uninitL]
    dsimp only
    cases ht : (uninit1 init s).2.1 with
    | true =>
      simp only [if_true]
      rw [hs.cb]
      refine and_congr_right fun _ => ?_
      constructor
      · rintro ⟨t, o, he, hxp⟩
        exact hfirst he hxp
      · rintro ⟨t, o, he, hxp⟩
        rcases (hx _ _).1 he with ⟨-, h'⟩ | ⟨a, b, -, h, -⟩
        · exact ⟨_, _, h', hxp⟩
        · exact absurd ⟨a, h⟩ ((hs.term init).1 ht)
    | false =>
      simp only [Bool.false_eq_true, if_false]
      rw [List.mem_append, hs.cb, hl.cb, List.mem_append, hs.defs init ht]
      constructor
      · rintro (⟨h1, t, o, he, hxp⟩ | ⟨h1, t, o, he, hxp⟩)
        · exact ⟨h1, hfirst he hxp⟩
        · refine ⟨fun h => h1 (.inr h), ?_⟩
          have h2 : ∃ a, Exec s a .normal ∧ Event.write i.name ∉ a := Classical.byContradiction fun h' => h1 (.inl fun t he => Classical.byContradiction fun hw => h' ⟨t, he, hw⟩)
          obtain ⟨a, ha, wa⟩ := h2
          exact ⟨_, _, (hx _ _).2 (.inr ⟨a, t, rfl, ha, he⟩), exposed_append.2 (.inr ⟨wa, hxp⟩)⟩
      · rintro ⟨h1, t, o, he, hxp⟩
        rcases (hx _ _).1 he with ⟨-, h'⟩ | ⟨a, b, rfl, ha, hb⟩
        · exact .inl ⟨h1, _, _, h', hxp⟩
        · rcases exposed_append.1 hxp with h | ⟨h2, h3⟩
          · exact .inl ⟨h1, _, _, ha, h⟩
          · exact .inr ⟨fun h => h.elim (fun h => h2 (h a ha)) h1, _, _, hb, h3⟩

theorem right_nil : RightL [] := by
  have hx : ∀ t o, ExecL [] t o ↔ t = [] ∧ o = .normal := by
    intro t o
    constructor
    · intro h; cases h; exact ⟨rfl, rfl⟩
    · rintro ⟨rfl, rfl⟩; exact .nil
  refine ⟨⟨_, _, .nil⟩, fun init loc => ?_, fun init loc _ n => ?_, fun init loc i => ?_⟩
  · rw [uninitL]
    simp only [Bool.false_eq_true, false_iff, Classical.not_not]
    exact ⟨_, .nil⟩
  · rw [uninitL]
    constructor
    · exact .inl
    · rintro (h | h)
      · exact h
      · have := h [] .nil
        cases this
  · rw [uninitL]
    simp only [List.not_mem_nil, false_iff]
    rintro ⟨-, t, o, he, hxp⟩
    rw [((hx _ _).1 he).1] at hxp
    exact exposed_nil hxp

mutual
theorem right1 : ∀ s : Expr, Right1 s
  | .call c x s l e a b => right_call c x s l e a b
  | .returnS c p r => right_return c p r
  | .branch c t p => right_branch c t p
  | .assign c l p op lb r => right_assign c l p op lb r
  | .forS _ _ _ _ b => right_for (rightL b)
  | .ifS _ _ _ t _ f => right_if (rightL t) (rightL f)
  | .nil => right_plain trivial fun _ => rfl
  | .commentBlock .. => right_plain trivial fun _ => rfl
  | .ident .. => right_plain trivial fun _ => rfl
  | .typedIdent .. => right_plain trivial fun _ => rfl
  | .literal .. => right_plain trivial fun _ => rfl
  | .string .. => right_plain trivial fun _ => rfl
  | .dot .. => right_plain trivial fun _ => rfl
  | .compr .. => right_plain trivial fun _ => rfl
  | .forClause .. => right_plain trivial fun _ => rfl
  | .ifClause .. => right_plain trivial fun _ => rfl
  | .keyValue .. => right_plain trivial fun _ => rfl
  | .dict .. => right_plain trivial fun _ => rfl
  | .list .. => right_plain trivial fun _ => rfl
  | .set .. => right_plain trivial fun _ => rfl
  | .tuple .. => right_plain trivial fun _ => rfl
  | .unary .. => right_plain trivial fun _ => rfl
  | .binary .. => right_plain trivial fun _ => rfl
  | .paren .. => right_plain trivial fun _ => rfl
  | .slice .. => right_plain trivial fun _ => rfl
  | .index .. => right_plain trivial fun _ => rfl
  | .lambda .. => right_plain trivial fun _ => rfl
  | .cond .. => right_plain trivial fun _ => rfl
  | .load .. => right_plain trivial fun _ => rfl
  | .defS .. => right_plain trivial fun _ => rfl
  | .file .. => right_plain trivial fun _ => rfl
theorem rightL : ∀ l : List Expr, RightL l
  | [] => right_nil
  | s :: l => right_cons (right1 s) (rightL l)
end

mutual
theorem locals1_iff (n : Bytes) : ∀ s : Expr, n ∈ locals1 s ↔ Assigns s n
  | .forS c p v x b => by
    rw [locals1, List.mem_append, lvalues_iff, localsL_iff n b]
    constructor
    · rintro (h | ⟨s, hs, h⟩)
      · exact .forVar _ _ _ _ _ n h
      · exact .forBody _ _ _ _ _ s n hs h
    · intro h
      cases h
      case forVar h => exact .inl h
      case forBody hs h => exact .inr ⟨_, hs, h⟩
  | .ifS c p cd t e f => by
    rw [locals1, List.mem_append, localsL_iff n t, localsL_iff n f]
    constructor
    · rintro (⟨s, hs, h⟩ | ⟨s, hs, h⟩)
      · exact .ifTrue _ _ _ _ _ _ s n hs h
      · exact .ifFalse _ _ _ _ _ _ s n hs h
    · intro h
      cases h
      case ifTrue hs h => exact .inl ⟨_, hs, h⟩
      case ifFalse hs h => exact .inr ⟨_, hs, h⟩
  | .assign c l p op lb r => by
    rw [locals1, lvalues_iff]
    exact ⟨fun h => .assign _ _ _ _ _ _ n h, fun h => (by cases h; assumption)⟩
  | .ident .. | .tuple .. | .list ..
  | .nil | .commentBlock .. | .typedIdent .. | .branch .. | .literal .. | .string .. | .call .. | .dot .. | .compr .. | .forClause .. | .ifClause .. | .keyValue ..
  | .dict .. | .set .. | .unary .. | .binary .. | .paren .. | .slice .. | .index .. | .lambda .. | .cond .. | .load .. | .defS .. | .returnS ..
  | .file .. => ⟨fun h => (by simp [locals1] at h), fun h => (by cases h)⟩
theorem localsL_iff (n : Bytes) : ∀ l : List Expr, n ∈ localsL l ↔ ∃ s ∈ l, Assigns s n
  | [] => by simp [localsL]
  | x :: l => by
    rw [localsL, List.mem_append, locals1_iff n x, localsL_iff n l]
    simp
end

theorem paramName_named {n : Bytes} (hn : n ≠ []) (x : Expr) : Bzlenv.paramName x = n ↔ Named x n := by
  constructor
  · induction x using Bzlenv.paramName.induct with
    | case1 i => rintro rfl; exact .ident i
    | case2 c i t => rintro rfl; exact .typed c i t
    | case3 c l p op b r ih => intro h; rw [Bzlenv.paramName] at h; exact .default _ _ _ _ _ _ _ (ih h)
    | case4 c p op x ih => intro h; rw [Bzlenv.paramName] at h; exact .star _ _ _ _ _ (ih h)
    | case5 x h1 h2 h3 h4 => intro h; rw [Bzlenv.paramName] at h <;> first | exact absurd h.symm hn | assumption
  · intro h
    induction h with
    | ident => rfl
    | typed => rfl
    | default c l p op b r n _ ih => rw [Bzlenv.paramName]; exact ih hn
    | star c p op x n _ ih => rw [Bzlenv.paramName]; exact ih hn

/-- Exactly those identifiers in a function are reported that belong to a variable the function assigns somewhere and that is no parameter, and that
some run of the function (whatever conditions evaluate to, however often loops run) reads before the variable has been assigned. -/
theorem C72_reported_exactly (f : Expr) (d : Flow.Path) (i : IdentN) (hi : i.name ≠ []) :
    (d, i) ∈ uninitWarning f ↔ ∃ c p n ps body cp fc fm t, Flow.NodeAt f d (.defS c p n ps body cp fc fm t) ∧
      (∃ s ∈ body, Assigns s i.name) ∧ (¬ ∃ q ∈ ps, Named q i.name) ∧ ∃ tr o, ExecL body tr o ∧ Exposed tr i := by
  have hdef : ∀ ps body, i ∈ uninitDef ps body ↔ (∃ s ∈ body, Assigns s i.name) ∧ (¬ ∃ q ∈ ps, Named q i.name) ∧ ∃ tr o, ExecL body tr o ∧ Exposed tr i := by
    intro ps body
    unfold uninitDef
    rw [List.mem_filter, (rightL body).cb, Bool.and_eq_true, List.contains_iff_mem, localsL_iff]
    have hp : (!ps.any fun p => Bzlenv.paramName p == i.name && !(Bzlenv.paramName p).isEmpty) = true ↔ ¬ ∃ q ∈ ps, Named q i.name := by
      rw [Bool.not_eq_true', ← Bool.not_eq_true, List.any_eq_true]
      refine not_congr (exists_congr fun q => and_congr_right fun _ => ?_)
      rw [Bool.and_eq_true, beq_iff_eq, paramName_named hi]
      refine ⟨fun h => h.1, fun h => ⟨h, ?_⟩⟩
      rw [(paramName_named hi q).2 h]
      cases hn : i.name with
      | nil => exact absurd hn hi
      | cons => rfl
    rw [hp]
    simp only [List.not_mem_nil, not_false_eq_true, true_and]
    exact ⟨fun ⟨h1, h2, h3⟩ => ⟨h2, h3, h1⟩, fun ⟨h2, h3, h1⟩ => ⟨h1, h2, h3⟩⟩
  unfold uninitWarning
  rw [List.mem_flatMap]
  constructor
  · rintro ⟨⟨d', st, x⟩, hx, h⟩
    cases x
    case defS c p n ps body cp fc fm t =>
      obtain ⟨j, hj, e⟩ := List.mem_map.1 h
      cases e
      exact ⟨c, p, n, ps, body, cp, fc, fm, t, (Flow.walkSt_node (by simp) d.length d (Nat.le_refl _) [] f).1 ⟨st, hx⟩, (hdef ps body).1 hj⟩
    all_goals cases h
  · rintro ⟨c, p, n, ps, body, cp, fc, fm, t, hn, h⟩
    obtain ⟨st, hst⟩ := (Flow.walkSt_node (by simp) d.length d (Nat.le_refl _) [] f).2 hn
    exact ⟨_, hst, List.mem_map.2 ⟨i, (hdef ps body).2 h, rfl⟩⟩

/-! ## Witnesses -/

/-- an identifier at a line -/
def at_ (l : Nat) (n : Bytes) : IdentN := { namePos := ⟨l, 1, 0⟩, name := n }
/-- `n = v` -/
def set (n : Bytes) (v : Expr) : Expr := .assign {} (.ident { name := n }) {} b!"=" false v
/-- `print(x)` -/
def print (x : Expr) : Expr := .call {} (.ident { name := b!"print" }) {} [x] {} false false

/-- ```
def f(p):
    if p:
        x = p
    else:
        return
    print(x)            # line 6: fine
    for y in p:
        if x: z = y
        else: continue
        print(z)        # line 10: fine
        w = [v for v in z]
    print(y)            # line 12: reported
    print(w)            # line 13: reported
``` -/
def exFile : Expr := .file {} [.defS {} {} b!"f" [.ident { name := b!"p" }] [
  .ifS {} {} (.ident { name := b!"p" }) [set b!"x" (.ident { name := b!"p" })] {} [.returnS {} {} .nil],
  print (.ident (at_ 6 b!"x")),
  .forS {} {} (.ident { name := b!"y" }) (.ident { name := b!"p" }) [
    .ifS {} {} (.ident { name := b!"x" }) [set b!"z" (.ident { name := b!"y" })] {} [.branch {} b!"continue" {}],
    print (.ident (at_ 10 b!"z")),
    set b!"w" (.compr {} false {} (.ident { name := b!"v" }) [.forClause {} {} (.ident { name := b!"v" }) {} (.ident { name := b!"z" })] false {})],
  print (.ident (at_ 12 b!"y")), print (.ident (at_ 13 b!"w"))] {} false false .nil]

theorem C72_witness : uninitWarning exFile = [([0, 0], at_ 12 b!"y"), ([0, 0], at_ 13 b!"w")] := by decide +kernel

/-- the run in which the loop ends at once reads `y` before it is assigned -/
example : ∃ c p n ps body cp fc fm t, Flow.NodeAt exFile [0, 0] (.defS c p n ps body cp fc fm t) ∧
      (∃ s ∈ body, Assigns s b!"y") ∧ (¬ ∃ q ∈ ps, Named q b!"y") ∧ ∃ tr o, ExecL body tr o ∧ Exposed tr (at_ 12 b!"y") :=
  (C72_reported_exactly exFile [0, 0] (at_ 12 b!"y") (by decide)).1 (by rw [C72_witness]; simp)

/-- ```
def f():
    x += 1          # not reported: the left hand side is not taken as read
``` -/
theorem C72_augmented : uninitWarning (.file {} [.defS {} {} b!"f" [] [.assign {} (.ident { name := b!"x" }) {} b!"+=" false (.literal {} {} b!"1")] {} false false .nil]) = [] := by
  decide +kernel

/-- ```
def f():
    fail(x)         # not reported
    x = 1
``` -/
theorem C72_fail : uninitWarning (.file {} [.defS {} {} b!"f" [] [.call {} (.ident { name := b!"fail" }) {} [.ident { name := b!"x" }] {} false false,
    set b!"x" (.literal {} {} b!"1")] {} false false .nil]) = [] := by decide +kernel

/-- ```
def f():
    def g(a = dict(x = 1)): pass    # `x`, the name of an argument of `dict`, is reported
    x = 1
``` -/
theorem C72_keyword_in_nested_header : uninitWarning (.file {} [.defS {} {} b!"f" [] [
    .defS {} {} b!"g" [.assign {} (.ident { name := b!"a" }) {} b!"=" false (.call {} (.ident { name := b!"dict" }) {} [set b!"x" (.literal {} {} b!"1")] {} false false)]
      [.branch {} b!"pass" {}] {} false false .nil,
    set b!"x" (.literal {} {} b!"1")] {} false false .nil]) = [([0, 0], { name := b!"x" })] := by decide +kernel

end Verif.Props.Uninit
