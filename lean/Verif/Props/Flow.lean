import Verif.Model.Flow
/-
C54: statements reported as unreachable are executed by no run, and every statement no run executes is reported or comes after a reported one.
C55: the missing-return warning is exact.
-/
namespace Verif.Props.Flow
open Verif Verif.Syntax Verif.Flow

/-! ## Specification: runs of statements -/

/-- how a statement ends -/
inductive Out where
  | normal | ret | fail | brk | cont
deriving DecidableEq, Repr

/-- statements that cannot change the flow of control, apart from failing at run time; a nested `def` is one (its body does not run here) -/
inductive Simple : Expr → Prop
  | nil : Simple .nil
  | commentBlock (c s) : Simple (.commentBlock c s)
  | ident (n) : Simple (.ident n)
  | typedIdent (c i t) : Simple (.typedIdent c i t)
  | pass (c p) : Simple (.branch c b!"pass" p)
  | literal (c s t) : Simple (.literal c s t)
  | string (n) : Simple (.string n)
  | call (c n s l e a b) : n.name ≠ b!"fail" → Simple (.call c (.ident n) s l e a b)
  | callOther (c x s l e a b) : (∀ n, x ≠ .ident n) → Simple (.call c x s l e a b)
  | dot (c x d np n) : Simple (.dot c x d np n)
  | compr (c cu l b cl f e) : Simple (.compr c cu l b cl f e)
  | forClause (c f v i x) : Simple (.forClause c f v i x)
  | ifClause (c i x) : Simple (.ifClause c i x)
  | keyValue (c k p v) : Simple (.keyValue c k p v)
  | dict (c s l e f) : Simple (.dict c s l e f)
  | list (c s l e f) : Simple (.list c s l e f)
  | set (c s l e f) : Simple (.set c s l e f)
  | tuple (c n s l e a b) : Simple (.tuple c n s l e a b)
  | unary (c o op x) : Simple (.unary c o op x)
  | binary (c x o op l y) : Simple (.binary c x o op l y)
  | assign (c x o op l y) : Simple (.assign c x o op l y)
  | paren (c s x e f) : Simple (.paren c s x e f)
  | slice (c x s f c1 t c2 st e) : Simple (.slice c x s f c1 t c2 st e)
  | index (c x s y e) : Simple (.index c x s y e)
  | lambda (c s p b) : Simple (.lambda c s p b)
  | cond (c t i te es el) : Simple (.cond c t i te es el)
  | load (c lp m f t r fc) : Simple (.load c lp m f t r fc)
  | defS (c s n p b cp fc fm t) : Simple (.defS c s n p b cp fc fm t)
  | file (c l) : Simple (.file c l)

mutual
/-- `Exec s tr o`: some run of the statement executes the statements `tr` (paths relative to `s`) and ends as `o` says. Conditions may turn out
either way, loops may run any number of times, and every statement may fail. -/
inductive Exec : Expr → List Path → Out → Prop
  | crash (s) : Exec s [[]] .fail
  | simple (s) : Simple s → Exec s [[]] .normal
  | ret (c p r) : Exec (.returnS c p r) [[]] .ret
  | brk (c p) : Exec (.branch c b!"break" p) [[]] .brk
  | cont (c p) : Exec (.branch c b!"continue" p) [[]] .cont
  | ifTrue (c p cd t e f tr o) : ExecL 0 t tr o → Exec (.ifS c p cd t e f) ([] :: tr.map (0 :: ·)) o
  | ifFalse (c p cd t e f tr o) : ExecL 0 f tr o → Exec (.ifS c p cd t e f) ([] :: tr.map (1 :: ·)) o
  | forEnd (c p v x b) : Exec (.forS c p v x b) [[]] .normal
  | forNext (c p v x b tr o tr' o') : ExecL 0 b tr o → (o = .normal ∨ o = .cont) → Exec (.forS c p v x b) tr' o' →
      Exec (.forS c p v x b) ([] :: tr.map (0 :: ·) ++ tr') o'
  | forBreak (c p v x b tr) : ExecL 0 b tr .brk → Exec (.forS c p v x b) ([] :: tr.map (0 :: ·)) .normal
  | forStop (c p v x b tr o) : ExecL 0 b tr o → (o = .ret ∨ o = .fail) → Exec (.forS c p v x b) ([] :: tr.map (0 :: ·)) o
/-- the same for a list of statements, numbered from `i` -/
inductive ExecL : Nat → List Expr → List Path → Out → Prop
  | nil (i) : ExecL i [] [] .normal
  | next (i s l tr tr' o) : Exec s tr .normal → ExecL (i + 1) l tr' o → ExecL i (s :: l) (tr.map (i :: ·) ++ tr') o
  | stop (i s l tr o) : Exec s tr o → o ≠ .normal → ExecL i (s :: l) (tr.map (i :: ·)) o
end

/-- the statement lists directly inside a statement, numbered -/
inductive Sub : Expr → Nat → List Expr → Prop
  | ifTrue (c p cd t e f) : Sub (.ifS c p cd t e f) 0 t
  | ifFalse (c p cd t e f) : Sub (.ifS c p cd t e f) 1 f
  | forS (c p v x b) : Sub (.forS c p v x b) 0 b

/-- `StmtIn i l q s`: `s` is the statement at path `q` of a function body `l` (numbered from `i`), not inside a nested function -/
inductive StmtIn : Nat → List Expr → Path → Expr → Prop
  | here (i j l s) : l[j]? = some s → StmtIn i l [i + j] s
  | inside (i j l s k l' q s') : l[j]? = some s → Sub s k l' → StmtIn 0 l' q s' → StmtIn i l ((i + j) :: k :: q) s'

/-- a statement at path `d` anywhere in a file -/
inductive NodeAt : Expr → Path → Expr → Prop
  | self (v) : NodeAt v [] v
  | file (c l j s d x) : l[j]? = some s → NodeAt s d x → NodeAt (.file c l) (0 :: j :: d) x
  | defS (c p n ps l cp fc fm t j s d x) : l[j]? = some s → NodeAt s d x → NodeAt (.defS c p n ps l cp fc fm t) (0 :: j :: d) x
  | sub (v k l j s d x) : Sub v k l → l[j]? = some s → NodeAt s d x → NodeAt v (k :: j :: d) x

/-- the statement at `r` is in the same block as `q`, or as a statement around `q`, and not after it -/
def Covers (r q : Path) : Prop := ∃ p i j rest, r = p ++ [i] ∧ q = p ++ j :: rest ∧ i ≤ j

/-! ## Unreachable statements -/

theorem simple_unreach1 {s} (h : Simple s) : unreach1 s = ([], false) := by
  cases h with
  | call c n s l e a b h => simp [unreach1, isFail, h]
  | callOther c x s l e a b h =>
    have : isFail (.call c x s l e a b) = false := by
      unfold isFail
      split
      · rename_i h'; injection h' with _ h'; exact absurd h' (h _)
      · rfl
    simp [unreach1, this]
  | _ => simp [unreach1]

/-- paths of a list numbered from `i` start with at least `i` -/
def From (i : Nat) (l : List Path) : Prop := ∀ p ∈ l, ∃ j r, p = j :: r ∧ i ≤ j

theorem From.succ {i l} (h : From (i + 1) l) : From i l := fun p hp => by
  obtain ⟨j, r, e, hj⟩ := h p hp
  exact ⟨j, r, e, by omega⟩

theorem From.map {i : Nat} {l : List Path} : From i (l.map (i :: ·)) := by
  intro p hp
  obtain ⟨a, _, rfl⟩ := List.mem_map.1 hp
  exact ⟨i, a, rfl, Nat.le_refl _⟩

theorem From.append {i a b} (h : From i a) (h' : From i b) : From i (a ++ b) := by
  intro p hp
  rcases List.mem_append.1 hp with hp | hp
  · exact h p hp
  · exact h' p hp

theorem unreachL_from : ∀ (l : List Expr) (i : Nat) (u : Bool), From i (unreachL i u l).1 := by
  intro l
  induction l with
  | nil => intro i u p hp; simp [unreachL] at hp
  | cons s l ih =>
    intro i u
    unfold unreachL
    by_cases hu : u = true
    · rw [if_pos hu]
      intro p hp
      simp at hp
      exact ⟨i, [], hp, Nat.le_refl _⟩
    · rw [if_neg hu]
      exact From.append From.map (ih _ _).succ

/-- the statement itself is not reported by its own round -/
theorem unreach1_ne (s : Expr) : [] ∉ (unreach1 s).1 := by
  cases s <;> simp [unreach1]

/-- two lists of paths have none in common -/
def Apart (a b : List Path) : Prop := ∀ p ∈ a, p ∉ b

theorem apart_map {a b : List Path} {i : Nat} (h : Apart a b) : Apart (a.map (i :: ·)) (b.map (i :: ·)) := by
  intro p hp hp'
  obtain ⟨x, hx, rfl⟩ := List.mem_map.1 hp
  obtain ⟨y, hy, e⟩ := List.mem_map.1 hp'
  injection e with _ e
  subst e
  exact h y hx hy

theorem apart_map_ne {a b : List Path} {i j : Nat} (h : i ≠ j) : Apart (a.map (i :: ·)) (b.map (j :: ·)) := by
  intro p hp hp'
  obtain ⟨x, hx, rfl⟩ := List.mem_map.1 hp
  obtain ⟨y, hy, e⟩ := List.mem_map.1 hp'
  injection e with e _
  exact h e.symm

theorem apart_from {a b : List Path} {i : Nat} (h : From (i + 1) b) : Apart (a.map (i :: ·)) b ∧ Apart b (a.map (i :: ·)) := by
  constructor
  · intro p hp hp'
    obtain ⟨x, hx, rfl⟩ := List.mem_map.1 hp
    obtain ⟨j, r, e, hj⟩ := h _ hp'
    injection e with e _
    omega
  · intro p hp' hp
    obtain ⟨x, hx, rfl⟩ := List.mem_map.1 hp
    obtain ⟨j, r, e, hj⟩ := h _ hp'
    injection e with e _
    omega

theorem apart_append {a b c : List Path} : Apart (a ++ b) c ↔ Apart a c ∧ Apart b c := by
  constructor
  · intro h; exact ⟨fun p hp => h p (List.mem_append.2 (.inl hp)), fun p hp => h p (List.mem_append.2 (.inr hp))⟩
  · intro h p hp
    rcases List.mem_append.1 hp with hp | hp
    · exact h.1 p hp
    · exact h.2 p hp

theorem apart_append' {a b c : List Path} : Apart a (b ++ c) ↔ Apart a b ∧ Apart a c := by
  constructor
  · intro h; exact ⟨fun p hp hx => h p hp (List.mem_append.2 (.inl hx)), fun p hp hx => h p hp (List.mem_append.2 (.inr hx))⟩
  · intro h p hp hx
    rcases List.mem_append.1 hx with hx | hx
    · exact h.1 p hp hx
    · exact h.2 p hp hx

theorem apart_nil {a b : List Path} (h : [] ∉ a) (h' : Apart a b) : Apart a ([] :: b) := by
  intro p hp hx
  rcases List.mem_cons.1 hx with rfl | hx
  · exact h hp
  · exact h' p hp hx

theorem exec_sound : ∀ {l : List Expr} {i tr o}, ExecL i l tr o →
    From i tr ∧ (Apart (unreachL i false l).1 tr ∧ ((unreachL i false l).2 = true → o ≠ .normal)) := by
  intro l i tr o h
  refine ExecL.rec (motive_1 := fun s tr o _ => Apart (unreach1 s).1 tr ∧ ((unreach1 s).2 = true → o ≠ .normal))
    (motive_2 := fun i l tr o _ => From i tr ∧ (Apart (unreachL i false l).1 tr ∧ ((unreachL i false l).2 = true → o ≠ .normal)))
    ?_ ?_ ?_ ?_ ?_ ?_ ?_ ?_ ?_ ?_ ?_ ?_ ?_ ?_ h
  · intro s
    exact ⟨apart_nil (unreach1_ne s) (fun _ _ h => by cases h), fun _ => by decide⟩
  · intro s h
    rw [simple_unreach1 h]
    exact ⟨fun _ h => (nomatch h), nofun⟩
  · intro c p r; exact ⟨fun _ h => by simp [unreach1] at h, fun _ => by decide⟩
  · intro c p; exact ⟨fun _ h => by simp [unreach1] at h, fun _ => by decide⟩
  · intro c p; exact ⟨fun _ h => by simp [unreach1] at h, fun _ => by decide⟩
  · intro c p cd t e f tr o _ ih
    refine ⟨apart_nil (unreach1_ne _) ?_, ?_⟩
    · simp only [unreach1]
      exact apart_append.2 ⟨apart_map ih.2.1, apart_map_ne (by decide)⟩
    · intro h
      simp only [unreach1, Bool.and_eq_true] at h
      exact ih.2.2 h.1
  · intro c p cd t e f tr o _ ih
    refine ⟨apart_nil (unreach1_ne _) ?_, ?_⟩
    · simp only [unreach1]
      exact apart_append.2 ⟨apart_map_ne (by decide), apart_map ih.2.1⟩
    · intro h
      simp only [unreach1, Bool.and_eq_true] at h
      exact ih.2.2 h.2
  · intro c p v x b
    exact ⟨apart_nil (unreach1_ne _) (fun _ _ h => by cases h), fun h => by simp [unreach1] at h⟩
  · intro c p v x b tr o tr' o' _ _ _ ih ih'
    refine ⟨?_, ih'.2⟩
    rw [List.cons_append]
    refine apart_nil (unreach1_ne _) (apart_append'.2 ⟨?_, ih'.1⟩)
    simp only [unreach1]
    exact apart_map ih.2.1
  · intro c p v x b tr _ ih
    refine ⟨apart_nil (unreach1_ne _) ?_, fun h => by simp [unreach1] at h⟩
    simp only [unreach1]
    exact apart_map ih.2.1
  · intro c p v x b tr o _ _ ih
    refine ⟨apart_nil (unreach1_ne _) ?_, fun h => by simp [unreach1] at h⟩
    simp only [unreach1]
    exact apart_map ih.2.1
  · intro i
    exact ⟨fun _ h => (nomatch h), fun _ h => by simp [unreachL] at h, fun h => by simp [unreachL] at h⟩
  · intro i s l tr tr' o _ _ ih ih'
    have h2 : (unreach1 s).2 = false := by
      cases hb : (unreach1 s).2 with
      | false => rfl
      | true => exact absurd rfl (ih.2 hb)
    refine ⟨From.append From.map ih'.1.succ, ?_⟩
    unfold unreachL
    rw [if_neg (by decide)]
    dsimp only
    rw [h2]
    refine ⟨apart_append.2 ⟨apart_append'.2 ⟨apart_map ih.1, (apart_from ih'.1).1⟩, apart_append'.2 ⟨(apart_from (unreachL_from _ _ _)).2, ih'.2.1⟩⟩, ih'.2.2⟩
  · intro i s l tr o _ ho ih
    refine ⟨From.map, ?_, fun _ => ho⟩
    unfold unreachL
    rw [if_neg (by decide)]
    exact apart_append.2 ⟨apart_map ih.1, (apart_from (unreachL_from _ _ _)).2⟩

theorem execL_any (i : Nat) (l : List Expr) : ∃ tr o, ExecL i l tr o := by
  cases l with
  | nil => exact ⟨_, _, .nil i⟩
  | cons s l => exact ⟨_, _, .stop i s l _ _ (.crash s) (by decide)⟩

/-- what completeness says of a list of statements -/
def Full (i : Nat) (l : List Expr) : Prop :=
  ((unreachL i false l).2 = false → ∃ tr, ExecL i l tr .normal) ∧
  ∀ q s, StmtIn i l q s → (∃ tr o, ExecL i l tr o ∧ q ∈ tr) ∨ ∃ r ∈ (unreachL i false l).1, Covers r q

/-- and of a statement -/
def Full1 (s : Expr) : Prop :=
  ((unreach1 s).2 = false → ∃ tr, Exec s tr .normal) ∧
  ∀ k l q s', Sub s k l → StmtIn 0 l q s' → (∃ tr o, Exec s tr o ∧ k :: q ∈ tr) ∨ ∃ r ∈ (unreach1 s).1, Covers r (k :: q)

theorem covers_cons {r q : Path} (k : Nat) (h : Covers r q) : Covers (k :: r) (k :: q) := by
  obtain ⟨p, i, j, rest, h1, h2, h3⟩ := h
  exact ⟨k :: p, i, j, rest, by rw [h1]; rfl, by rw [h2]; rfl, h3⟩

theorem full1_simple {s : Expr} (h : Simple s) (h' : ∀ k l, ¬ Sub s k l) : Full1 s :=
  ⟨fun _ => ⟨_, .simple s h⟩, fun k l _ _ hs => absurd hs (h' k l)⟩

theorem full1_if {c p cd t e f} (ht : Full 0 t) (hf : Full 0 f) : Full1 (.ifS c p cd t e f) := by
  constructor
  · intro h
    simp only [unreach1, Bool.and_eq_false_iff] at h
    rcases h with h | h
    · obtain ⟨tr, htr⟩ := ht.1 h
      exact ⟨_, .ifTrue c p cd t e f tr _ htr⟩
    · obtain ⟨tr, htr⟩ := hf.1 h
      exact ⟨_, .ifFalse c p cd t e f tr _ htr⟩
  · intro k l q s' hs hq
    cases hs with
    | ifTrue =>
      rcases ht.2 q s' hq with ⟨tr, o, h1, h2⟩ | ⟨r, h1, h2⟩
      · exact .inl ⟨_, _, .ifTrue c p cd _ e f tr o h1, by simp [h2]⟩
      · exact .inr ⟨0 :: r, by simp [unreach1, h1], covers_cons 0 h2⟩
    | ifFalse =>
      rcases hf.2 q s' hq with ⟨tr, o, h1, h2⟩ | ⟨r, h1, h2⟩
      · exact .inl ⟨_, _, .ifFalse c p cd t e _ tr o h1, by simp [h2]⟩
      · exact .inr ⟨1 :: r, by simp [unreach1, h1], covers_cons 1 h2⟩

theorem full1_for {c p v x b} (hb : Full 0 b) : Full1 (.forS c p v x b) := by
  constructor
  · intro _
    exact ⟨_, .forEnd c p v x b⟩
  · intro k l q s' hs hq
    cases hs with
    | forS =>
      rcases hb.2 q s' hq with ⟨tr, o, h1, h2⟩ | ⟨r, h1, h2⟩
      · left
        cases o with
        | normal => exact ⟨_, _, .forNext c p v x _ tr _ _ _ h1 (.inl rfl) (.forEnd c p v x _), by simp [h2]⟩
        | cont => exact ⟨_, _, .forNext c p v x _ tr _ _ _ h1 (.inr rfl) (.forEnd c p v x _), by simp [h2]⟩
        | brk => exact ⟨_, _, .forBreak c p v x _ tr h1, by simp [h2]⟩
        | ret => exact ⟨_, _, .forStop c p v x _ tr _ h1 (.inl rfl), by simp [h2]⟩
        | fail => exact ⟨_, _, .forStop c p v x _ tr _ h1 (.inr rfl), by simp [h2]⟩
      · exact .inr ⟨0 :: r, by simp [unreach1, h1], covers_cons 0 h2⟩

theorem full_cons {s l} (i : Nat) (hs : Full1 s) (hl : Full (i + 1) l) : Full i (s :: l) := by
  have hu : unreachL i false (s :: l) = ((unreach1 s).1.map (i :: ·) ++ (unreachL (i + 1) (unreach1 s).2 l).1, (unreachL (i + 1) (unreach1 s).2 l).2) := by
    rw [unreachL, if_neg (by decide)]
  -- a run of `s` extends to a run of the list
  have ext : ∀ tr o, Exec s tr o → ∀ q ∈ tr, ∃ tr' o', ExecL i (s :: l) tr' o' ∧ i :: q ∈ tr' := by
    intro tr o h q hq
    by_cases ho : o = .normal
    · subst ho
      obtain ⟨tr', o', h'⟩ := execL_any (i + 1) l
      exact ⟨_, _, .next i s l tr tr' o' h h', by simp [hq]⟩
    · exact ⟨_, _, .stop i s l tr o h ho, by simp [hq]⟩
  constructor
  · intro h
    rw [hu] at h
    cases hb : (unreach1 s).2 with
    | true =>
      rw [hb] at h
      cases l with
      | nil => simp [unreachL] at h
      | cons s' l => simp [unreachL] at h
    | false =>
      rw [hb] at h
      obtain ⟨tr, htr⟩ := hs.1 hb
      obtain ⟨tr', htr'⟩ := hl.1 h
      exact ⟨_, .next i s l tr tr' _ htr htr'⟩
  · intro q s' hq
    -- statements after the first
    have later : ∀ q, StmtIn (i + 1) l q s' → (∃ tr o, ExecL i (s :: l) tr o ∧ q ∈ tr) ∨ ∃ r ∈ (unreachL i false (s :: l)).1, Covers r q := by
      intro q hq
      rw [hu]
      cases hb : (unreach1 s).2 with
      | true =>
        right
        have hne : l ≠ [] := by
          rintro rfl
          cases hq with
          | here _ j _ _ hj => simp at hj
          | inside _ j _ _ _ _ _ _ hj => simp at hj
        obtain ⟨s2, l2, rfl⟩ := List.exists_cons_of_ne_nil hne
        refine ⟨[i + 1], by simp [unreachL], ?_⟩
        cases hq with
        | here _ j _ _ hj => exact ⟨[], i + 1, i + 1 + j, [], rfl, rfl, by omega⟩
        | inside _ j _ _ k _ q' _ hj => exact ⟨[], i + 1, i + 1 + j, k :: q', rfl, rfl, by omega⟩
      | false =>
        rcases hl.2 q s' hq with ⟨tr', o, h1, h2⟩ | ⟨r, h1, h2⟩
        · obtain ⟨tr, htr⟩ := hs.1 hb
          exact .inl ⟨_, _, .next i s l tr tr' o htr h1, by simp [h2]⟩
        · exact .inr ⟨r, by simp [h1], h2⟩
    cases hq with
    | here _ j _ _ hj =>
      cases j with
      | zero =>
        left
        obtain ⟨tr, o, h1, h2⟩ := ext _ _ (.crash s) [] (by simp)
        exact ⟨tr, o, h1, h2⟩
      | succ j =>
        have := later [i + 1 + j] (.here (i + 1) j l s' (by simpa using hj))
        rw [show i + (j + 1) = i + 1 + j by omega]
        exact this
    | inside _ j _ s0 k l' q' _ hj hsub hin =>
      cases j with
      | zero =>
        simp at hj
        subst hj
        rcases hs.2 k l' q' s' hsub hin with ⟨tr, o, h1, h2⟩ | ⟨r, h1, h2⟩
        · exact .inl (ext tr o h1 _ h2)
        · right
          rw [hu]
          exact ⟨i :: r, by simp [h1], covers_cons i h2⟩
      | succ j =>
        have := later ((i + 1 + j) :: k :: q') (.inside (i + 1) j l s0 k l' q' s' (by simpa using hj) hsub hin)
        rw [show i + (j + 1) = i + 1 + j by omega]
        exact this

theorem full_nil (i : Nat) : Full i [] := by
  refine ⟨fun _ => ⟨_, .nil i⟩, fun q s hq => ?_⟩
  cases hq with
  | here _ j _ _ hj => simp at hj
  | inside _ j _ _ _ _ _ _ hj => simp at hj

theorem full_call (c x s l e a b) : Full1 (.call c x s l e a b) := by
  refine ⟨fun h => ?_, fun k l q s' hs => nomatch hs⟩
  refine ⟨_, .simple _ ?_⟩
  cases x with
  | ident n =>
    refine .call c n s l e a b ?_
    intro hn
    simp [unreach1, isFail, hn] at h
  | _ => exact .callOther _ _ _ _ _ _ _ nofun

mutual
theorem full1 : ∀ s : Expr, Full1 s
  | .returnS c p r => ⟨fun h => by simp [unreach1] at h, fun k l q s' hs => nomatch hs⟩
  | .branch c t p => ⟨fun h => by
      have : t = b!"pass" := by simpa [unreach1] using h
      subst this
      exact ⟨_, .simple _ (.pass c p)⟩, fun k l q s' hs => nomatch hs⟩
  | .call c x s l e a b => full_call c x s l e a b
  | .forS c p v x b => full1_for (full b 0)
  | .ifS c p cd t e f => full1_if (full t 0) (full f 0)
  | .nil => full1_simple .nil nofun
  | .commentBlock .. => full1_simple (.commentBlock ..) nofun
  | .ident .. => full1_simple (.ident ..) nofun
  | .typedIdent .. => full1_simple (.typedIdent ..) nofun
  | .literal .. => full1_simple (.literal ..) nofun
  | .string .. => full1_simple (.string ..) nofun
  | .dot .. => full1_simple (.dot ..) nofun
  | .compr .. => full1_simple (.compr ..) nofun
  | .forClause .. => full1_simple (.forClause ..) nofun
  | .ifClause .. => full1_simple (.ifClause ..) nofun
  | .keyValue .. => full1_simple (.keyValue ..) nofun
  | .dict .. => full1_simple (.dict ..) nofun
  | .list .. => full1_simple (.list ..) nofun
  | .set .. => full1_simple (.set ..) nofun
  | .tuple .. => full1_simple (.tuple ..) nofun
  | .unary .. => full1_simple (.unary ..) nofun
  | .binary .. => full1_simple (.binary ..) nofun
  | .assign .. => full1_simple (.assign ..) nofun
  | .paren .. => full1_simple (.paren ..) nofun
  | .slice .. => full1_simple (.slice ..) nofun
  | .index .. => full1_simple (.index ..) nofun
  | .lambda .. => full1_simple (.lambda ..) nofun
  | .cond .. => full1_simple (.cond ..) nofun
  | .load .. => full1_simple (.load ..) nofun
  | .defS .. => full1_simple (.defS ..) nofun
  | .file .. => full1_simple (.file ..) nofun
theorem full : ∀ (l : List Expr) (i : Nat), Full i l
  | [], i => full_nil i
  | s :: l, i => full_cons i (full1 s) (full l (i + 1))
end

/-! ## Visiting statements -/

/-- membership in the loop over a list, given membership for its elements -/
theorem walkStL_mem {stop : List Expr → Expr → Bool} {stack : List Expr} {x : Expr} : ∀ (l : List Expr) (i : Nat) (q : Path),
    ((∃ st, (q, st, x) ∈ walkStL stop stack i l) ↔ ∃ j s d, l[j]? = some s ∧ q = (i + j) :: d ∧ ∃ st, (d, st, x) ∈ walkSt stop stack s) := by
  intro l
  induction l with
  | nil => intro i q; simp [walkStL]
  | cons s l ih =>
    intro i q
    simp only [walkStL, List.mem_append, List.mem_map]
    constructor
    · rintro ⟨st, ⟨y, hy, e⟩ | h⟩
      · obtain ⟨d, st', x'⟩ := y
        cases e
        exact ⟨0, s, d, rfl, rfl, st, hy⟩
      · obtain ⟨j, s', d, h1, h2, h3⟩ := (ih (i + 1) q).1 ⟨st, h⟩
        exact ⟨j + 1, s', d, by simpa using h1, by rw [h2]; congr 1; omega, h3⟩
    · rintro ⟨j, s', d, h1, h2, st, h3⟩
      cases j with
      | zero =>
        simp at h1
        subst h1
        exact ⟨st, .inl ⟨(d, st, x), h3, by rw [h2]; rfl⟩⟩
      | succ j =>
        obtain ⟨st', h⟩ := (ih (i + 1) q).2 ⟨j, s', d, by simpa using h1, by rw [h2]; congr 1; omega, st, h3⟩
        exact ⟨st', .inr h⟩

/-- `walkSt` visits the node itself and, unless stopped, the nodes in its lists -/
theorem walkSt_sub {stop : List Expr → Expr → Bool} {stack : List Expr} {x v : Expr} {d : Path} (hx : x ≠ .nil) :
    ((∃ st, (d, st, x) ∈ walkSt stop stack v) ↔
      (d = [] ∧ x = v) ∨ (stop stack v = false ∧ ∃ k l, (Sub v k l ∨ (k = 0 ∧ ((∃ c, v = .file c l) ∨ ∃ c p n ps cp fc fm t, v = .defS c p n ps l cp fc fm t))) ∧
        ∃ q, d = k :: q ∧ ∃ st, (q, st, x) ∈ walkStL stop (stack ++ [v]) 0 l)) := by
  constructor
  · rintro ⟨st, h⟩
    cases v with
    | nil => simp [walkSt] at h
    | file c l =>
      simp only [walkSt, List.mem_cons] at h
      rcases h with h | h
      · cases h; exact .inl ⟨rfl, rfl⟩
      · cases hs : stop stack (.file c l) with
        | true => rw [hs] at h; simp at h
        | false =>
          rw [hs] at h
          simp only [Bool.false_eq_true, if_false, List.mem_map] at h
          obtain ⟨⟨q, st', x'⟩, hy, e⟩ := h
          cases e
          exact .inr ⟨rfl, 0, l, .inr ⟨rfl, .inl ⟨c, rfl⟩⟩, q, rfl, st, hy⟩
    | defS c p n ps l cp fc fm t =>
      simp only [walkSt, List.mem_cons] at h
      rcases h with h | h
      · cases h; exact .inl ⟨rfl, rfl⟩
      · cases hs : stop stack (.defS c p n ps l cp fc fm t) with
        | true => rw [hs] at h; simp at h
        | false =>
          rw [hs] at h
          simp only [Bool.false_eq_true, if_false, List.mem_map] at h
          obtain ⟨⟨q, st', x'⟩, hy, e⟩ := h
          cases e
          exact .inr ⟨rfl, 0, l, .inr ⟨rfl, .inr ⟨c, p, n, ps, cp, fc, fm, t, rfl⟩⟩, q, rfl, st, hy⟩
    | forS c p vs xx l =>
      simp only [walkSt, List.mem_cons] at h
      rcases h with h | h
      · cases h; exact .inl ⟨rfl, rfl⟩
      · cases hs : stop stack (.forS c p vs xx l) with
        | true => rw [hs] at h; simp at h
        | false =>
          rw [hs] at h
          simp only [Bool.false_eq_true, if_false, List.mem_map] at h
          obtain ⟨⟨q, st', x'⟩, hy, e⟩ := h
          cases e
          exact .inr ⟨rfl, 0, l, .inl (.forS ..), q, rfl, st, hy⟩
    | ifS c p cd l e l' =>
      simp only [walkSt, List.mem_cons] at h
      rcases h with h | h
      · cases h; exact .inl ⟨rfl, rfl⟩
      · cases hs : stop stack (.ifS c p cd l e l') with
        | true => rw [hs] at h; simp at h
        | false =>
          rw [hs] at h
          simp only [Bool.false_eq_true, if_false, List.mem_append, List.mem_map] at h
          rcases h with ⟨⟨q, st', x'⟩, hy, e⟩ | ⟨⟨q, st', x'⟩, hy, e⟩
          · cases e
            exact .inr ⟨rfl, 0, l, .inl (.ifTrue ..), q, rfl, st, hy⟩
          · cases e
            exact .inr ⟨rfl, 1, l', .inl (.ifFalse ..), q, rfl, st, hy⟩
    | _ => simp only [walkSt, List.mem_singleton] at h; cases h; exact .inl ⟨rfl, rfl⟩
  · rintro (⟨rfl, rfl⟩ | ⟨hs, k, l, hk, q, rfl, st, h⟩)
    · refine ⟨stack, ?_⟩
      cases x with
      | nil => exact absurd rfl hx
      | _ => simp [walkSt]
    · refine ⟨st, ?_⟩
      rcases hk with hk | ⟨rfl, ⟨c, rfl⟩ | ⟨c, p, n, ps, cp, fc, fm, t, rfl⟩⟩
      · cases hk with
        | ifTrue => simp only [walkSt, hs]; simp [h]
        | ifFalse => simp only [walkSt, hs]; simp [h]
        | forS => simp only [walkSt, hs]; simp [h]
      · simp only [walkSt, hs]; simp [h]
      · simp only [walkSt, hs]; simp [h]

/-- the nodes visited when nothing stops the walk -/
theorem walkSt_node {x : Expr} (hx : x ≠ .nil) : ∀ (n : Nat) (d : Path), d.length ≤ n → ∀ (stack : List Expr) (v : Expr),
    ((∃ st, (d, st, x) ∈ walkSt (fun _ _ => false) stack v) ↔ NodeAt v d x) := by
  intro n
  induction n with
  | zero =>
    intro d hd stack v
    have : d = [] := List.length_eq_zero_iff.1 (by omega)
    subst this
    rw [walkSt_sub hx]
    constructor
    · rintro (⟨_, rfl⟩ | ⟨_, _, _, _, _, h, _⟩)
      · exact .self x
      · cases h
    · intro h
      cases h with
      | self => exact .inl ⟨rfl, rfl⟩
  | succ n ih =>
    intro d hd stack v
    rw [walkSt_sub hx]
    constructor
    · rintro (⟨rfl, rfl⟩ | ⟨_, k, l, hk, q, rfl, h⟩)
      · exact .self x
      · obtain ⟨j, s, d', h1, h2, h3⟩ := (walkStL_mem l 0 q).1 h
        subst h2
        have h4 := (ih d' (by simp at hd; omega) _ s).1 h3
        simp only [Nat.zero_add]
        rcases hk with hk | ⟨rfl, ⟨c, rfl⟩ | ⟨c, p, nm, ps, cp, fc, fm, t, rfl⟩⟩
        · exact .sub _ _ _ _ _ _ _ hk h1 h4
        · exact .file _ _ _ _ _ _ h1 h4
        · exact .defS _ _ _ _ _ _ _ _ _ _ _ _ _ h1 h4
    · intro h
      have step : ∀ (l : List Expr) (j : Nat) (s : Expr) (d' : Path), l[j]? = some s → NodeAt s d' x → d'.length ≤ n → ∀ stack,
          ∃ st, (j :: d', st, x) ∈ walkStL (fun _ _ => false) stack 0 l := by
        intro l j s d' h1 h2 h3 stack
        exact (walkStL_mem l 0 _).2 ⟨j, s, d', h1, by simp, (ih d' h3 stack s).2 h2⟩
      cases h with
      | self => exact .inl ⟨rfl, rfl⟩
      | file c l j s d' _ h1 h2 => exact .inr ⟨rfl, 0, l, .inr ⟨rfl, .inl ⟨c, rfl⟩⟩, _, rfl, step l j s d' h1 h2 (by simp at hd; omega) _⟩
      | defS c p nm ps l cp fc fm t j s d' _ h1 h2 =>
        exact .inr ⟨rfl, 0, l, .inr ⟨rfl, .inr ⟨c, p, nm, ps, cp, fc, fm, t, rfl⟩⟩, _, rfl, step l j s d' h1 h2 (by simp at hd; omega) _⟩
      | sub _ k l j s d' _ hk h1 h2 => exact .inr ⟨rfl, k, l, .inl hk, _, rfl, step l j s d' h1 h2 (by simp at hd; omega) _⟩

/-- reported statements are statements of the function -/
theorem unreach_stmt : ∀ (n : Nat) (l : List Expr) (i : Nat) (u : Bool) (q : Path), q.length ≤ n → q ∈ (unreachL i u l).1 → ∃ s, StmtIn i l q s := by
  intro n
  induction n with
  | zero =>
    intro l i u q hq h
    obtain ⟨j, r, rfl, _⟩ := unreachL_from l i u q h
    simp at hq
  | succ n ihn =>
    intro l
    induction l with
    | nil => intro i u q _ h; simp [unreachL] at h
    | cons s l ih =>
      intro i u q hq h
      have later : ∀ s', StmtIn (i + 1) l q s' → ∃ s', StmtIn i (s :: l) q s' := by
        intro s' h
        cases h with
        | here _ j _ _ hj => exact ⟨s', by rw [show i + 1 + j = i + (j + 1) by omega]; exact .here i (j + 1) _ _ (by simpa using hj)⟩
        | inside _ j _ s0 k l' q' _ hj hs hin =>
          exact ⟨s', by rw [show i + 1 + j = i + (j + 1) by omega]; exact .inside i (j + 1) _ s0 k l' q' _ (by simpa using hj) hs hin⟩
      unfold unreachL at h
      by_cases hu : u = true
      · rw [if_pos hu] at h
        simp at h
        subst h
        exact ⟨s, .here i 0 _ _ rfl⟩
      · rw [if_neg hu] at h
        simp only [List.mem_append, List.mem_map] at h
        rcases h with ⟨q', h, rfl⟩ | h
        · have key : ∀ k l', Sub s k l' → ∀ q2, q' = k :: q2 → q2 ∈ (unreachL 0 false l').1 → ∃ s', StmtIn i (s :: l) (i :: q') s' := by
            intro k l' hk q2 e h2
            subst e
            obtain ⟨s', hs'⟩ := ihn l' 0 false q2 (by simp at hq; omega) h2
            exact ⟨s', .inside i 0 _ s k l' q2 s' rfl hk hs'⟩
          cases s with
          | forS c p v x b =>
            simp only [unreach1, List.mem_map] at h
            obtain ⟨q2, h2, rfl⟩ := h
            exact key 0 b (.forS ..) q2 rfl h2
          | ifS c p cd t e f =>
            simp only [unreach1, List.mem_append, List.mem_map] at h
            rcases h with ⟨q2, h2, rfl⟩ | ⟨q2, h2, rfl⟩
            · exact key 0 t (.ifTrue ..) q2 rfl h2
            · exact key 1 f (.ifFalse ..) q2 rfl h2
          | _ => simp [unreach1] at h
        · obtain ⟨s', hs'⟩ := ih (i + 1) _ q hq h
          exact later s' hs'

theorem warning_mem {f : Expr} {r : Path} : r ∈ unreachableWarning f ↔
    ∃ d c p n ps body cp fc fm t q, NodeAt f d (.defS c p n ps body cp fc fm t) ∧ q ∈ (unreachL 0 false body).1 ∧ r = d ++ 0 :: q := by
  unfold unreachableWarning
  rw [List.mem_flatMap]
  constructor
  · rintro ⟨⟨d, st, x⟩, hx, h⟩
    cases x with
    | defS c p n ps body cp fc fm t =>
      simp only [List.mem_map] at h
      obtain ⟨q, hq, rfl⟩ := h
      exact ⟨d, c, p, n, ps, body, cp, fc, fm, t, q, (walkSt_node (x := .defS c p n ps body cp fc fm t) nofun _ d (Nat.le_refl _) [] f).1 ⟨st, hx⟩, hq, rfl⟩
    | _ => simp at h
  · rintro ⟨d, c, p, n, ps, body, cp, fc, fm, t, q, hn, hq, rfl⟩
    obtain ⟨st, hst⟩ := (walkSt_node (x := .defS c p n ps body cp fc fm t) nofun _ d (Nat.le_refl _) [] f).2 hn
    refine ⟨_, hst, ?_⟩
    simp [hq]

/-- **C54** No run of a function executes a statement in it that is reported as unreachable, whatever conditions evaluate to. -/
theorem C54_sound (f : Expr) (r : Path) (h : r ∈ unreachableWarning f) :
    ∃ d q c p n ps body cp fc fm t, r = d ++ 0 :: q ∧ NodeAt f d (.defS c p n ps body cp fc fm t) ∧ (∃ s, StmtIn 0 body q s) ∧
      ∀ tr o, ExecL 0 body tr o → q ∉ tr := by
  obtain ⟨d, c, p, n, ps, body, cp, fc, fm, t, q, hn, hq, e⟩ := warning_mem.1 h
  exact ⟨d, q, c, p, n, ps, body, cp, fc, fm, t, e, hn, unreach_stmt _ body 0 false q (Nat.le_refl _) hq,
    fun tr o hx hq' => (exec_sound hx).2.1 q hq hq'⟩

/-- **C54** Conversely, a statement of a function that no run executes is reported, or a statement before it is, in its own block or in one
around it. -/
theorem C54_complete (f : Expr) (d : Path) (c p n ps body cp fc fm t) (hf : NodeAt f d (.defS c p n ps body cp fc fm t)) (q : Path) (s : Expr)
    (hq : StmtIn 0 body q s) (h : ∀ tr o, ExecL 0 body tr o → q ∉ tr) :
    ∃ r, Covers r q ∧ d ++ 0 :: r ∈ unreachableWarning f := by
  rcases (full body 0).2 q s hq with ⟨tr, o, h1, h2⟩ | ⟨r, h1, h2⟩
  · exact absurd h2 (h tr o h1)
  · exact ⟨r, h2, warning_mem.2 ⟨d, c, p, n, ps, body, cp, fc, fm, t, r, hf, h1, rfl⟩⟩

/-! ## Missing return values -/

/-- a `break` or `continue` (or an unknown branch) that is not inside a loop -/
inductive Stray : Expr → Prop
  | here (c tok p) : tok ≠ b!"pass" → Stray (.branch c tok p)
  | ifTrue (c p cd t e f s) : s ∈ t → Stray s → Stray (.ifS c p cd t e f)
  | ifFalse (c p cd t e f s) : s ∈ f → Stray s → Stray (.ifS c p cd t e f)

theorem simple_returns1 {s} (h : Simple s) : returns1 s = ([], false) := by
  cases h with
  | call c n s l e a b h => simp [returns1, isFail, h]
  | callOther c x s l e a b h =>
    have : isFail (.call c x s l e a b) = false := by
      unfold isFail
      split
      · rename_i h'; injection h' with _ h'; exact absurd h' (h _)
      · rfl
    simp [returns1, this]
  | _ => simp [returns1]

theorem returns_term {l : List Expr} {i tr o} (h : ExecL i l tr o) : (returnsL i l).2 = true → o ≠ .normal := by
  refine ExecL.rec (motive_1 := fun s tr o _ => (returns1 s).2 = true → o ≠ .normal)
    (motive_2 := fun i l tr o _ => (returnsL i l).2 = true → o ≠ .normal)
    ?_ ?_ ?_ ?_ ?_ ?_ ?_ ?_ ?_ ?_ ?_ ?_ ?_ ?_ h
  · intro s _; decide
  · intro s h h'; rw [simple_returns1 h] at h'; cases h'
  · intro c p r _; decide
  · intro c p _; decide
  · intro c p _; decide
  · intro c p cd t e f tr o _ ih h
    simp only [returns1, Bool.and_eq_true] at h
    exact ih h.1
  · intro c p cd t e f tr o _ ih h
    simp only [returns1, Bool.and_eq_true] at h
    exact ih h.2
  · intro c p v x b h; simp [returns1] at h
  · intro c p v x b tr o tr' o' _ _ _ _ ih' h; exact ih' h
  · intro c p v x b tr _ _ h; simp [returns1] at h
  · intro c p v x b tr o _ ho _ _
    rcases ho with rfl | rfl <;> decide
  · intro i h; simp [returnsL] at h
  · intro i s l tr tr' o _ _ ih ih' h
    simp only [returnsL, Bool.or_eq_true] at h
    rcases h with h | h
    · exact absurd rfl (ih h)
    · exact ih' h
  · intro i s l tr o _ ho _ _; exact ho

/-- a statement that does not terminate can end normally -/
def Falls1 (s : Expr) : Prop := ¬ Stray s → (returns1 s).2 = false → ∃ tr, Exec s tr .normal

def Falls (l : List Expr) : Prop := ∀ i, (∀ s ∈ l, ¬ Stray s) → (returnsL i l).2 = false → ∃ tr, ExecL i l tr .normal

theorem falls_simple {s : Expr} (h : Simple s) : Falls1 s := fun _ _ => ⟨_, .simple s h⟩

theorem falls_call (c x s l e a b) : Falls1 (.call c x s l e a b) := by
  intro _ h
  refine ⟨_, .simple _ ?_⟩
  cases x with
  | ident n =>
    refine .call c n s l e a b ?_
    intro hn
    simp [returns1, isFail, hn] at h
  | _ => exact .callOther _ _ _ _ _ _ _ nofun

theorem falls_return (c p r) : Falls1 (.returnS c p r) := by
  intro _ h
  cases r <;> simp [returns1] at h

theorem falls_branch (c t p) : Falls1 (.branch c t p) := by
  intro h _
  by_cases ht : t = b!"pass"
  · subst ht; exact ⟨_, .simple _ (.pass c p)⟩
  · exact absurd (.here c t p ht) h

theorem falls_if {c p cd t e f} (ht : Falls t) (hf : Falls f) : Falls1 (.ifS c p cd t e f) := by
  intro hs h
  simp only [returns1, Bool.and_eq_false_iff] at h
  rcases h with h | h
  · obtain ⟨tr, htr⟩ := ht 0 (fun s hm hst => hs (.ifTrue _ _ _ _ _ _ s hm hst)) h
    exact ⟨_, .ifTrue _ _ _ _ _ _ tr _ htr⟩
  · obtain ⟨tr, htr⟩ := hf 0 (fun s hm hst => hs (.ifFalse _ _ _ _ _ _ s hm hst)) h
    exact ⟨_, .ifFalse _ _ _ _ _ _ tr _ htr⟩

theorem falls_cons {s l} (hs : Falls1 s) (hl : Falls l) : Falls (s :: l) := by
  intro i hst h
  simp only [returnsL, Bool.or_eq_false_iff] at h
  obtain ⟨tr, htr⟩ := hs (hst s (List.mem_cons_self ..)) h.1
  obtain ⟨tr', htr'⟩ := hl (i + 1) (fun x hx => hst x (List.mem_cons_of_mem _ hx)) h.2
  exact ⟨_, .next i s l tr tr' _ htr htr'⟩

mutual
theorem falls1 : ∀ s : Expr, Falls1 s
  | .returnS c p r => falls_return c p r
  | .branch c t p => falls_branch c t p
  | .call c x s l e a b => falls_call c x s l e a b
  | .forS c p v x b => fun _ _ => ⟨_, .forEnd c p v x b⟩
  | .ifS c p cd t e f => falls_if (falls t) (falls f)
  | .nil => falls_simple .nil
  | .commentBlock .. => falls_simple (.commentBlock ..)
  | .ident .. => falls_simple (.ident ..)
  | .typedIdent .. => falls_simple (.typedIdent ..)
  | .literal .. => falls_simple (.literal ..)
  | .string .. => falls_simple (.string ..)
  | .dot .. => falls_simple (.dot ..)
  | .compr .. => falls_simple (.compr ..)
  | .forClause .. => falls_simple (.forClause ..)
  | .ifClause .. => falls_simple (.ifClause ..)
  | .keyValue .. => falls_simple (.keyValue ..)
  | .dict .. => falls_simple (.dict ..)
  | .list .. => falls_simple (.list ..)
  | .set .. => falls_simple (.set ..)
  | .tuple .. => falls_simple (.tuple ..)
  | .unary .. => falls_simple (.unary ..)
  | .binary .. => falls_simple (.binary ..)
  | .assign .. => falls_simple (.assign ..)
  | .paren .. => falls_simple (.paren ..)
  | .slice .. => falls_simple (.slice ..)
  | .index .. => falls_simple (.index ..)
  | .lambda .. => falls_simple (.lambda ..)
  | .cond .. => falls_simple (.cond ..)
  | .load .. => falls_simple (.load ..)
  | .defS .. => falls_simple (.defS ..)
  | .file .. => falls_simple (.file ..)
theorem falls : ∀ (l : List Expr), Falls l
  | [] => fun i _ _ => ⟨_, .nil i⟩
  | s :: l => falls_cons (falls1 s) (falls l)
end

/-- statements of a list, by its first one -/
theorem stmtIn_cons {i : Nat} {s : Expr} {l : List Expr} {q : Path} {x : Expr} : StmtIn i (s :: l) q x ↔
    (q = [i] ∧ x = s) ∨ (∃ k l' q', q = i :: k :: q' ∧ Sub s k l' ∧ StmtIn 0 l' q' x) ∨ StmtIn (i + 1) l q x := by
  constructor
  · intro h
    cases h with
    | here _ j _ _ hj =>
      cases j with
      | zero => simp at hj; exact .inl ⟨rfl, hj.symm⟩
      | succ j =>
        rw [show i + (j + 1) = i + 1 + j by omega]
        exact .inr (.inr (.here _ _ _ _ (by simpa using hj)))
    | inside _ j _ s0 k l' q' _ hj hs hin =>
      cases j with
      | zero => simp at hj; subst hj; exact .inr (.inl ⟨k, l', q', rfl, hs, hin⟩)
      | succ j =>
        rw [show i + (j + 1) = i + 1 + j by omega]
        exact .inr (.inr (.inside _ _ _ _ _ _ _ _ (by simpa using hj) hs hin))
  · rintro (⟨rfl, rfl⟩ | ⟨k, l', q', rfl, hs, hin⟩ | h)
    · exact .here i 0 _ _ rfl
    · exact .inside i 0 _ s k l' q' x rfl hs hin
    · cases h with
      | here _ j _ _ hj => rw [show i + 1 + j = i + (j + 1) by omega]; exact .here i (j + 1) _ _ (by simpa using hj)
      | inside _ j _ s0 k l' q' _ hj hs hin =>
        rw [show i + 1 + j = i + (j + 1) by omega]; exact .inside i (j + 1) _ s0 k l' q' _ (by simpa using hj) hs hin

theorem stmtIn_nil {i q x} : ¬ StmtIn i [] q x := by
  intro h
  cases h with
  | here _ j _ _ hj => simp at hj
  | inside _ j _ _ _ _ _ _ hj => simp at hj

/-- the returns without a value in one round -/
theorem returns1_mem {s : Expr} {q : Path} (ih : ∀ k l, Sub s k l → ∀ q, q ∈ (returnsL 0 l).1 ↔ ∃ c p, StmtIn 0 l q (.returnS c p .nil)) :
    q ∈ (returns1 s).1 ↔ (q = [] ∧ ∃ c p, s = .returnS c p .nil) ∨ ∃ k l q', q = k :: q' ∧ Sub s k l ∧ ∃ c p, StmtIn 0 l q' (.returnS c p .nil) := by
  cases s with
  | returnS c p r =>
    constructor
    · intro h
      cases r with
      | nil => simp [returns1] at h; exact .inl ⟨h, c, p, rfl⟩
      | _ => simp [returns1] at h
    · rintro (⟨rfl, c', p', e⟩ | ⟨k, l, q', _, hs, _⟩)
      · cases e; simp [returns1]
      · cases hs
  | forS c p v x b =>
    simp only [returns1, List.mem_map]
    constructor
    · rintro ⟨q', h, rfl⟩
      exact .inr ⟨0, b, q', rfl, .forS .., (ih 0 b (.forS ..) q').1 h⟩
    · rintro (⟨_, _, _, e⟩ | ⟨k, l, q', rfl, hs, h⟩)
      · cases e
      · cases hs
        exact ⟨q', (ih 0 _ (.forS ..) q').2 h, rfl⟩
  | ifS c p cd t e f =>
    simp only [returns1, List.mem_append, List.mem_map]
    constructor
    · rintro (⟨q', h, rfl⟩ | ⟨q', h, rfl⟩)
      · exact .inr ⟨0, t, q', rfl, .ifTrue .., (ih 0 t (.ifTrue ..) q').1 h⟩
      · exact .inr ⟨1, f, q', rfl, .ifFalse .., (ih 1 f (.ifFalse ..) q').1 h⟩
    · rintro (⟨_, _, _, e⟩ | ⟨k, l, q', rfl, hs, h⟩)
      · cases e
      · cases hs with
        | ifTrue => exact .inl ⟨q', (ih 0 _ (.ifTrue ..) q').2 h, rfl⟩
        | ifFalse => exact .inr ⟨q', (ih 1 _ (.ifFalse ..) q').2 h, rfl⟩
  | _ =>
    constructor
    · intro h; simp [returns1] at h
    · rintro (⟨_, _, _, e⟩ | ⟨k, l, q', _, hs, _⟩)
      · cases e
      · cases hs

/-- the reported returns are the returns without a value -/
theorem returns_mem : ∀ (n : Nat) (l : List Expr), sizeOf l ≤ n → ∀ (i : Nat) (q : Path),
    q ∈ (returnsL i l).1 ↔ ∃ c p, StmtIn i l q (.returnS c p .nil) := by
  intro n
  induction n with
  | zero => intro l hl; cases l <;> simp at hl
  | succ n ih =>
    intro l hl i q
    cases l with
    | nil => simp [returnsL, stmtIn_nil]
    | cons s l =>
      have hsz : sizeOf s + sizeOf l ≤ n := by simp at hl; omega
      have hsub : ∀ k l', Sub s k l' → sizeOf l' ≤ n := by
        intro k l' h
        cases h <;> simp at hsz <;> omega
      simp only [returnsL, List.mem_append, List.mem_map]
      rw [ih l (by omega) (i + 1) q]
      constructor
      · rintro (⟨q', h, rfl⟩ | ⟨c, p, h⟩)
        · rcases (returns1_mem (fun k l' hs => ih l' (hsub k l' hs) 0)).1 h with ⟨rfl, c, p, e⟩ | ⟨k, l', q'', rfl, hs, c, p, h⟩
          · exact ⟨c, p, stmtIn_cons.2 (.inl ⟨rfl, e.symm⟩)⟩
          · exact ⟨c, p, stmtIn_cons.2 (.inr (.inl ⟨k, l', q'', rfl, hs, h⟩))⟩
        · exact ⟨c, p, stmtIn_cons.2 (.inr (.inr h))⟩
      · rintro ⟨c, p, h⟩
        rcases stmtIn_cons.1 h with ⟨rfl, e⟩ | ⟨k, l', q', rfl, hs, h⟩ | h
        · exact .inl ⟨[], (returns1_mem (fun k l' hs => ih l' (hsub k l' hs) 0)).2 (.inl ⟨rfl, c, p, e.symm⟩), rfl⟩
        · exact .inl ⟨k :: q', (returns1_mem (fun k l' hs => ih l' (hsub k l' hs) 0)).2 (.inr ⟨k, l', q', rfl, hs, c, p, h⟩), rfl⟩
        · exact .inr ⟨c, p, h⟩

/-- the walk that does not enter nested functions -/
theorem walk_body {x : Expr} (hx : x ≠ .nil) : ∀ (n : Nat) (q : Path), q.length ≤ n → ∀ (l : List Expr) (i : Nat) (stack : List Expr), stack ≠ [] →
    (∀ q c l', ¬ StmtIn i l q (.file c l')) →
    ((∃ st, (q, st, x) ∈ walkStL (fun stack x => isDefStmt x && decide (stack.length > 0)) stack i l) ↔ StmtIn i l q x) := by
  intro n
  induction n with
  | zero =>
    intro q hq l i stack _ _
    have : q = [] := List.length_eq_zero_iff.1 (by omega)
    subst this
    rw [walkStL_mem]
    constructor
    · rintro ⟨_, _, _, _, h, _⟩; cases h
    · intro h; cases h
  | succ n ih =>
    intro q hq l i stack hst hfile
    have hlen : decide (stack.length > 0) = true := by
      cases stack with
      | nil => exact absurd rfl hst
      | cons _ _ => simp
    rw [walkStL_mem]
    constructor
    · rintro ⟨j, s, d, h1, rfl, h3⟩
      rcases (walkSt_sub hx).1 h3 with ⟨rfl, rfl⟩ | ⟨hs, k, l', hk, q', rfl, h4⟩
      · exact .here i j l x h1
      · rcases hk with hk | ⟨rfl, ⟨c, rfl⟩ | ⟨c, p, nm, ps, cp, fc, fm, t, rfl⟩⟩
        · refine .inside i j l s k l' q' x h1 hk ((ih q' (by simp at hq; omega) l' 0 _ (by simp) ?_).1 h4)
          intro q2 c l2 h2
          exact hfile _ c l2 (.inside i j l s k l' q2 _ h1 hk h2)
        · exact absurd (.here i j l _ h1) (hfile _ c l')
        · rw [hlen] at hs
          cases hs
    · intro h
      cases h with
      | here _ j _ _ hj => exact ⟨j, x, [], hj, rfl, (walkSt_sub hx).2 (.inl ⟨rfl, rfl⟩)⟩
      | inside _ j _ s k l' q' _ hj hs hin =>
        refine ⟨j, s, k :: q', hj, rfl, (walkSt_sub hx).2 (.inr ⟨?_, k, l', .inl hs, q', rfl, ?_⟩)⟩
        · cases hs <;> rfl
        · refine (ih q' (by simp at hq; omega) l' 0 _ (by simp) ?_).2 hin
          intro q2 c l2 h2
          exact hfile _ c l2 (.inside i j l s k l' q2 _ hj hs h2)

theorem hasValueReturn_iff {c p n ps body cp fc fm t} (hfile : ∀ q c l', ¬ StmtIn 0 body q (.file c l')) :
    hasValueReturn (.defS c p n ps body cp fc fm t) = true ↔ ∃ q c p r, StmtIn 0 body q (.returnS c p r) ∧ r ≠ .nil := by
  unfold hasValueReturn
  rw [List.any_eq_true]
  constructor
  · rintro ⟨⟨d, st, x⟩, hm, hx⟩
    dsimp only at hx
    cases x with
    | returnS c' p' r =>
      have hr : r ≠ .nil := by rintro rfl; simp [isValueReturn] at hx
      rcases (walkSt_sub (x := .returnS c' p' r) nofun).1 ⟨st, hm⟩ with ⟨_, e⟩ | ⟨_, k, l, hk, q, rfl, h⟩
      · cases e
      · rcases hk with hk | ⟨rfl, ⟨_, e⟩ | ⟨_, _, _, _, _, _, _, _, e⟩⟩
        · cases hk
        · cases e
        · cases e
          exact ⟨q, c', p', r, (walk_body (x := .returnS c' p' r) nofun _ q (Nat.le_refl _) body 0 _ (by simp) hfile).1 h, hr⟩
    | _ => simp [isValueReturn] at hx
  · rintro ⟨q, c', p', r, h, hr⟩
    obtain ⟨st, hst⟩ := (walkSt_sub (stop := fun stack x => isDefStmt x && decide (stack.length > 0)) (stack := []) (v := .defS c p n ps body cp fc fm t)
        (d := 0 :: q) (x := .returnS c' p' r) nofun).2
      (.inr ⟨rfl, 0, body, .inr ⟨rfl, .inr ⟨c, p, n, ps, cp, fc, fm, t, rfl⟩⟩, q, rfl, (walk_body (x := .returnS c' p' r) nofun _ q (Nat.le_refl _) body 0 _ (by simp) hfile).2 h⟩)
    refine ⟨_, hst, ?_⟩
    cases r with
    | nil => exact absurd rfl hr
    | _ => rfl

theorem missing_mem {f : Expr} {m : Missing} : m ∈ missingReturn f ↔ ∃ d c p n ps body cp fc fm t, NodeAt f d (.defS c p n ps body cp fc fm t) ∧
    hasValueReturn (.defS c p n ps body cp fc fm t) = true ∧
    ((∃ q ∈ (returnsL 0 body).1, m = .bareReturn d q) ∨ ((returnsL 0 body).2 = false ∧ m = .implicitReturn d)) := by
  unfold missingReturn
  rw [List.mem_flatMap]
  constructor
  · rintro ⟨⟨d, st, x⟩, hx, h⟩
    cases x with
    | defS c p n ps body cp fc fm t =>
      dsimp only at h
      by_cases hv : hasValueReturn (.defS c p n ps body cp fc fm t) = true
      · rw [if_pos hv] at h
        refine ⟨d, c, p, n, ps, body, cp, fc, fm, t, (walkSt_node (x := .defS c p n ps body cp fc fm t) nofun _ d (Nat.le_refl _) [] f).1 ⟨st, hx⟩, hv, ?_⟩
        rcases List.mem_append.1 h with h | h
        · obtain ⟨q, hq, rfl⟩ := List.mem_map.1 h
          exact .inl ⟨q, hq, rfl⟩
        · cases hb : (returnsL 0 body).2 with
          | true => rw [hb] at h; simp at h
          | false => rw [hb] at h; simp at h; exact .inr ⟨rfl, h⟩
      · rw [if_neg hv] at h; cases h
    | _ => simp at h
  · rintro ⟨d, c, p, n, ps, body, cp, fc, fm, t, hn, hv, h⟩
    obtain ⟨st, hst⟩ := (walkSt_node (x := .defS c p n ps body cp fc fm t) nofun _ d (Nat.le_refl _) [] f).2 hn
    refine ⟨_, hst, ?_⟩
    dsimp only
    rw [if_pos hv]
    rcases h with ⟨q, hq, rfl⟩ | ⟨hb, rfl⟩
    · exact List.mem_append.2 (.inl (List.mem_map.2 ⟨q, hq, rfl⟩))
    · rw [hb]; simp

theorem nodeAt_fun {v d x y} (h : NodeAt v d x) (h' : NodeAt v d y) : x = y := by
  induction h with
  | self v => cases h'; rfl
  | file c l j s d x hj _ ih =>
    cases h' with
    | file _ _ _ s' _ _ hj' h' => rw [hj] at hj'; cases hj'; exact ih h'
    | sub _ _ _ _ _ _ _ hs => cases hs
  | defS c p n ps l cp fc fm t j s d x hj _ ih =>
    cases h' with
    | defS _ _ _ _ _ _ _ _ _ _ s' _ _ hj' h' => rw [hj] at hj'; cases hj'; exact ih h'
    | sub _ _ _ _ _ _ _ hs => cases hs
  | sub v k l j s d x hs hj _ ih =>
    cases h' with
    | file => cases hs
    | defS => cases hs
    | sub _ _ l' _ s' _ _ hs' hj' h' =>
      have : l = l' := by
        cases hs <;> cases hs' <;> rfl
      subst this
      rw [hj] at hj'
      cases hj'
      exact ih h'

/-- **C55** A function is reported as possibly ending with an implicit return exactly if it returns a value somewhere and some run of it falls off
its end. (Starlark allows `break` and `continue` in loops only.) -/
theorem C55_implicit (f : Expr) (d : Path) (c p n ps body cp fc fm t) (hf : NodeAt f d (.defS c p n ps body cp fc fm t))
    (hfile : ∀ q c l, ¬ StmtIn 0 body q (.file c l)) (hstray : ∀ s ∈ body, ¬ Stray s) :
    Missing.implicitReturn d ∈ missingReturn f ↔
      (∃ q c p r, StmtIn 0 body q (.returnS c p r) ∧ r ≠ .nil) ∧ ∃ tr, ExecL 0 body tr .normal := by
  rw [missing_mem]
  constructor
  · rintro ⟨d', c', p', n', ps', body', cp', fc', fm', t', hn, hv, ⟨_, _, e⟩ | ⟨hb, e⟩⟩
    · cases e
    · cases e
      cases nodeAt_fun hf hn
      exact ⟨(hasValueReturn_iff hfile).1 hv, falls body 0 hstray hb⟩
  · rintro ⟨hv, tr, htr⟩
    refine ⟨d, c, p, n, ps, body, cp, fc, fm, t, hf, (hasValueReturn_iff hfile).2 hv, .inr ⟨?_, rfl⟩⟩
    cases hb : (returnsL 0 body).2 with
    | false => rfl
    | true => exact absurd rfl (returns_term htr hb)

/-- **C55** The other findings are exactly the `return` statements without a value in functions that return a value elsewhere; in particular every such
statement that some run executes is reported. -/
theorem C55_bare (f : Expr) (d : Path) (c p n ps body cp fc fm t) (hf : NodeAt f d (.defS c p n ps body cp fc fm t))
    (hfile : ∀ q c l, ¬ StmtIn 0 body q (.file c l)) (q : Path) :
    Missing.bareReturn d q ∈ missingReturn f ↔
      (∃ q c p r, StmtIn 0 body q (.returnS c p r) ∧ r ≠ .nil) ∧ ∃ c p, StmtIn 0 body q (.returnS c p .nil) := by
  rw [missing_mem]
  constructor
  · rintro ⟨d', c', p', n', ps', body', cp', fc', fm', t', hn, hv, ⟨_, hq, e⟩ | ⟨hb, e⟩⟩
    · cases e
      cases nodeAt_fun hf hn
      exact ⟨(hasValueReturn_iff hfile).1 hv, (returns_mem _ body (Nat.le_refl _) 0 q).1 hq⟩
    · cases e
  · rintro ⟨hv, hq⟩
    exact ⟨d, c, p, n, ps, body, cp, fc, fm, t, hf, (hasValueReturn_iff hfile).2 hv, .inl ⟨q, (returns_mem _ body (Nat.le_refl _) 0 q).2 hq, rfl⟩⟩

/-! ## Examples -/

/-- `fail("x")` -/
def exFail : Expr := .call {} (.ident { name := b!"fail" }) {} [.string { value := b!"x" }] {} false false
def exPass : Expr := .branch {} b!"pass" {}
def exDef (body : List Expr) : Expr := .file {} [.defS {} {} b!"f" [] body {} false false .nil]

/-- `if c: return 1 else: fail("x")`, then `pass`: the last statement is reported -/
example : unreachableWarning (exDef [.ifS {} {} (.ident { name := b!"c" }) [.returnS {} {} (.literal {} {} b!"1")] {} [exFail], exPass]) = [[0, 0, 0, 1]] := rfl

/-- `for x in y: break` and then `pass`: nothing is reported -/
example : unreachableWarning (exDef [.forS {} {} .nil .nil [.branch {} b!"break" {}], exPass]) = [] := rfl

/-- `for x in y: return 1`: may fall off the end -/
example : missingReturn (exDef [.forS {} {} .nil .nil [.returnS {} {} (.literal {} {} b!"1")]]) = [.implicitReturn [0, 0]] := rfl

/-- `if c: return 1 else: return`: the second one is reported -/
example : missingReturn (exDef [.ifS {} {} (.ident { name := b!"c" }) [.returnS {} {} (.literal {} {} b!"1")] {} [.returnS {} {} .nil]]) =
    [.bareReturn [0, 0] [0, 1, 0]] := rfl

end Verif.Props.Flow
