import Verif.Model.UnusedLoadWarn
import Verif.Props.UnusedLoads
import Verif.Props.LoadArgs
/-
C73: the `load` check and its fix.
-/
namespace Verif.Props.UnusedLoadWarn
open Verif Verif.Syntax Verif.Walk Verif.Rewrite Verif.Edit Verif.UnusedLoadWarn Verif.Props.UnusedLoads Verif.Props.LoadArgs

/-! ### Specification -/

/-- `n` is one of the names a type annotation consists of: `n`, the parts of `T[U]`, and `T` in `T.type`. For a parameter or function,
those of its annotations; a parameter without annotation counts by its own name. -/
inductive TypeName (n : Bytes) : Expr → Prop
  | name (c p) : TypeName n (.ident ⟨c, p, n⟩)
  | base (c x p y q) : TypeName n x → TypeName n (.index c x p y q)
  | argument (c x p y q) : TypeName n y → TypeName n (.index c x p y q)
  | dotType (c x p q) : TypeName n x → TypeName n (.dot c x p q b!"type")
  | typed (c i t) : TypeName n t → TypeName n (.typedIdent c i t)
  | result (c p m ps b cp a d t) : TypeName n t → TypeName n (.defS c p m ps b cp a d t)
  | param (c p m ps b cp a d t x) : x ∈ ps → TypeName n x → TypeName n (.defS c p m ps b cp a d t)

/-- `n` occurs in a type annotation -/
inductive Typed (n : Bytes) : Expr → Prop
  | ident (c i t) : TypeName n (.typedIdent c i t) → Typed n (.typedIdent c i t)
  | function (c p m ps b cp a d t) : TypeName n (.defS c p m ps b cp a d t) → Typed n (.defS c p m ps b cp a d t)
  | inside (v x) : (∀ c p m f t r fc, v ≠ .load c p m f t r fc) → x ∈ slots v → Typed n x → Typed n v

/-- the file needs `n`: as a name or in a type annotation -/
def Needs (stmts : List Expr) (n : Bytes) : Prop := ∃ e ∈ stmts, Uses n e ∨ Typed n e

/-- a loaded symbol: the load, the way the module is written in it, the name there and the local name -/
structure Sym where
  load : Expr
  token : Bytes
  from_ : IdentN
  to_ : IdentN

/-- the symbols a statement loads -/
def syms1 : Expr → List Sym
  | .load c p m f t r fc => (f.zip t).map fun q => ⟨.load c p m f t r fc, m.token, q.1, q.2⟩
  | _ => []

/-- the symbols a file loads, in order -/
def syms (stmts : List Expr) : List Sym := stmts.flatMap syms1

/-- the symbol, or its load, is marked -/
def Marked (s : Sym) : Prop := Kept s.load ∨ Kept (.ident s.to_) ∨ Kept (.ident s.from_)

/-- loaded from the same place -/
def Same (s s' : Sym) : Prop := s.token = s'.token ∧ s.from_.name = s'.from_.name

/-- what is said of a symbol loaded after `pre` -/
inductive Said (used : Bytes → Prop) (pre : List Sym) (s : Sym) : Kind → Prop
  | unused : (∀ x ∈ pre, x.to_.name ≠ s.to_.name) → ¬ used s.to_.name → ¬ Marked s → Said used pre s .unused
  | duplicate (a x b) : pre = a ++ x :: b → x.to_.name = s.to_.name → (∀ y ∈ b, y.to_.name ≠ s.to_.name) → Same x s →
      Said used pre s (.duplicate x.from_.namePos.line)
  | different (a x b) : pre = a ++ x :: b → x.to_.name = s.to_.name → (∀ y ∈ b, y.to_.name ≠ s.to_.name) → ¬ Same x s →
      Said used pre s (.different x.from_.namePos.line)

/-- the symbol is to be removed -/
def Superfluous (used : Bytes → Prop) (pre : List Sym) (s : Sym) : Prop :=
  Said used pre s .unused ∨ ∃ line, Said used pre s (.duplicate line)

/-- the findings for symbols loaded after `pre`, and the symbols that are not to be removed -/
inductive Checked (used : Bytes → Prop) : List Sym → List Sym → List UF → List Sym → Prop
  | nil (pre) : Checked used pre [] [] []
  | quiet (pre s l fs ks) : (∀ k, ¬ Said used pre s k) → Checked used (pre ++ [s]) l fs ks → Checked used pre (s :: l) fs (s :: ks)
  | removed (pre s l fs ks k) : Said used pre s k → Superfluous used pre s → Checked used (pre ++ [s]) l fs ks →
      Checked used pre (s :: l) (⟨s.to_, k⟩ :: fs) ks
  | kept (pre s l fs ks k) : Said used pre s k → ¬ Superfluous used pre s → Checked used (pre ++ [s]) l fs ks →
      Checked used pre (s :: l) (⟨s.to_, k⟩ :: fs) (s :: ks)

/-- Statements after the fix (`pre` are the symbols loaded before): others stay as they are; so do loads without findings or (`¬ all`)
some others; the superfluous symbols of a load are removed and the remaining ones sorted; without symbols the load is removed. -/
inductive Fixed (used : Bytes → Prop) (all : Prop) : List Sym → List Expr → List Expr → Prop
  | nil (pre) : Fixed used all pre [] []
  | other (pre e l l') : syms1 e = [] → Fixed used all pre l l' → Fixed used all pre (e :: l) (e :: l')
  | same (pre e l l' fs ks) : Checked used pre (syms1 e) fs ks → (all → fs = []) → Fixed used all (pre ++ syms1 e) l l' →
      Fixed used all pre (e :: l) (e :: l')
  | gone (pre e l l' fs) : Checked used pre (syms1 e) fs [] → fs ≠ [] → Fixed used all (pre ++ syms1 e) l l' →
      Fixed used all pre (e :: l) (.nil :: l')
  | changed (pre c p m f t r fc l l' fs ks k) : Checked used pre (syms1 (.load c p m f t r fc)) fs ks → fs ≠ [] → k ≠ [] →
      (∀ q ∈ k, ∃ s ∈ ks, q = (s.from_, s.to_)) →
      ((ks.map (·.to_.name)).Nodup → k.Perm (ks.map fun s => (s.from_, s.to_))) → k.Pairwise before →
      Fixed used all (pre ++ syms1 (.load c p m f t r fc)) l l' →
      Fixed used all pre (.load c p m f t r fc :: l) (.load c p m (k.map (·.1)) (k.map (·.2)) r fc :: l')

/-! ### Proofs: names and types -/

theorem getTypesN_name : ∀ (k : Nat) (v : Expr) (n : Bytes), n ∈ getTypesN k v → TypeName n v := by
  intro k
  induction k with
  | zero => intro v n h; cases h
  | succ k ih =>
    intro v n h
    cases v
    case typedIdent => exact .typed _ _ _ (ih _ _ h)
    case ident i =>
      simp only [getTypesN, List.mem_singleton] at h
      subst h; exact .name _ _
    case defS =>
      simp only [getTypesN, List.mem_append, List.mem_flatMap] at h
      rcases h with h | ⟨x, hx, h⟩
      · exact .result _ _ _ _ _ _ _ _ _ (ih _ _ h)
      · exact .param _ _ _ _ _ _ _ _ _ x hx (ih _ _ h)
    case index =>
      simp only [getTypesN, List.mem_append] at h
      rcases h with h | h
      · exact .base _ _ _ _ _ (ih _ _ h)
      · exact .argument _ _ _ _ _ (ih _ _ h)
    case dot =>
      simp only [getTypesN] at h
      split at h
      · rename_i he; subst he; exact .dotType _ _ _ _ (ih _ _ h)
      · cases h
    all_goals cases h

theorem name_getTypesN (n : Bytes) (v : Expr) (h : TypeName n v) : ∀ k, size v ≤ k → n ∈ getTypesN k v := by
  induction h with
  | name c p =>
    intro k hk
    cases k with
    | zero => simp [size] at hk
    | succ k => simp [getTypesN]
  | base c x p y q _ ih | argument c x p y q _ ih =>
    intro k hk
    cases k with
    | zero => simp [size] at hk
    | succ k =>
      have := ih k (by simp [size] at hk; omega)
      simp [getTypesN, this]
  | dotType c x p q _ ih =>
    intro k hk
    cases k with
    | zero => simp [size] at hk
    | succ k =>
      have := ih k (by simp [size] at hk; omega)
      simp only [getTypesN, if_true, this]
  | typed c i t _ ih =>
    intro k hk
    cases k with
    | zero => simp [size] at hk
    | succ k => exact ih k (by simp [size] at hk; omega)
  | result c p m ps b cp a d t _ ih =>
    intro k hk
    cases k with
    | zero => simp [size] at hk
    | succ k =>
      have := ih k (by simp [size] at hk; omega)
      simp [getTypesN, this]
  | param c p m ps b cp a d t x hx _ ih =>
    intro k hk
    cases k with
    | zero => simp [size] at hk
    | succ k =>
      have hlt : size x < size (.defS c p m ps b cp a d t) := size_slot_lt (by simp [slots, hx])
      have := ih k (by omega)
      simp only [getTypesN, List.mem_append, List.mem_flatMap]
      exact .inr ⟨x, hx, this⟩

theorem typesN_typed : ∀ (k : Nat) (v : Expr) (n : Bytes), n ∈ typesN k v → Typed n v := by
  intro k
  induction k with
  | zero => intro v n h; cases h
  | succ k ih =>
    intro v n h
    have other : (∀ c p m f t r fc, v ≠ .load c p m f t r fc) → n ∈ (slots v).flatMap (typesN k) → Typed n v := by
      intro h1 h
      obtain ⟨x, hx, hn⟩ := List.mem_flatMap.mp h
      exact .inside v x h1 hx (ih _ _ hn)
    cases v
    case load => cases h
    case typedIdent => exact .ident _ _ _ (getTypesN_name _ _ _ h)
    case defS =>
      rcases List.mem_append.mp h with h | h
      · exact .function _ _ _ _ _ _ _ _ _ (getTypesN_name _ _ _ h)
      · exact other (by intros; simp) h
    all_goals exact other (by intros; simp) h

theorem typed_typesN (n : Bytes) (v : Expr) (h : Typed n v) : ∀ k, size v ≤ k → n ∈ typesN k v := by
  induction h with
  | ident c i t h =>
    intro k hk
    cases k with
    | zero => simp [size] at hk
    | succ k => exact name_getTypesN n _ h _ (Nat.le_refl _)
  | function c p m ps b cp a d t h =>
    intro k hk
    cases k with
    | zero => simp [size] at hk
    | succ k => exact List.mem_append.mpr (.inl (name_getTypesN n _ h _ (Nat.le_refl _)))
  | inside v x h1 hx _ ih =>
    intro k hk
    cases k with
    | zero => have := size_pos v; omega
    | succ k =>
      have hm : n ∈ (slots v).flatMap (typesN k) :=
        List.mem_flatMap.mpr ⟨x, hx, ih k (by have := size_slot_lt hx; omega)⟩
      cases v
      case load => exact absurd rfl (h1 _ _ _ _ _ _ _)
      case typedIdent => cases hx
      case defS => exact List.mem_append.mpr (.inr hm)
      all_goals exact hm

/-- **C73 (types).** `UsedTypes` is exactly the set of names in the type annotations of the tree. -/
theorem C73_used_types (v : Expr) (n : Bytes) : n ∈ usedTypes v ↔ Typed n v :=
  ⟨typesN_typed _ v n, fun h => typed_typesN n v h _ (Nat.le_refl _)⟩

theorem uses_file (n : Bytes) (c : Comments) (l : List Expr) : Uses n (.file c l) ↔ ∃ e ∈ l, Uses n e := by
  constructor
  · intro h
    cases h with
    | inside _ x _ _ hx h => exact ⟨x, hx, h⟩
  · rintro ⟨e, he, h⟩
    exact .inside _ e (by intros; simp) (by intros; simp) he h

theorem typed_file (n : Bytes) (c : Comments) (l : List Expr) : Typed n (.file c l) ↔ ∃ e ∈ l, Typed n e := by
  constructor
  · intro h
    cases h with
    | inside _ x _ hx h => exact ⟨x, hx, h⟩
  · rintro ⟨e, he, h⟩
    exact .inside _ e (by intros; simp) he h

/-- the names considered used -/
theorem used_iff (f : File) (n : Bytes) : n ∈ usedSymbols f.toExpr ++ usedTypes f.toExpr ↔ Needs f.stmts n := by
  rw [List.mem_append, C36_used_symbols, C73_used_types]
  unfold File.toExpr
  rw [uses_file, typed_file]
  constructor
  · rintro (⟨e, he, h⟩ | ⟨e, he, h⟩)
    · exact ⟨e, he, .inl h⟩
    · exact ⟨e, he, .inr h⟩
  · rintro ⟨e, he, h | h⟩
    · exact .inl ⟨e, he, h⟩
    · exact .inr ⟨e, he, h⟩

/-! ### Proofs: the check -/

/-- the last symbol loaded under a name -/
def last (pre : List Sym) (n : Bytes) : Option Sym := pre.reverse.find? fun s => s.to_.name = n

theorem last_append (pre : List Sym) (s : Sym) (n : Bytes) : last (pre ++ [s]) n = if s.to_.name = n then some s else last pre n := by
  unfold last
  rw [List.reverse_append, List.reverse_singleton, List.singleton_append, List.find?_cons]
  by_cases h : s.to_.name = n <;> simp [h]

theorem last_none (pre : List Sym) (n : Bytes) : last pre n = none ↔ ∀ x ∈ pre, x.to_.name ≠ n := by
  unfold last
  rw [List.find?_eq_none]
  simp

theorem last_some (pre : List Sym) (n : Bytes) (s : Sym) :
    last pre n = some s ↔ s.to_.name = n ∧ ∃ a b, pre = a ++ s :: b ∧ ∀ y ∈ b, y.to_.name ≠ n := by
  unfold last
  rw [List.find?_eq_some_iff_append]
  constructor
  · rintro ⟨h, as, bs, he, hb⟩
    have he' := congrArg List.reverse he
    rw [List.reverse_reverse] at he'
    refine ⟨by simpa using h, bs.reverse, as.reverse, by simpa using he', ?_⟩
    intro y hy
    simpa using hb y (List.mem_reverse.mp hy)
  · rintro ⟨h, a, b, he, hb⟩
    refine ⟨by simpa using h, b.reverse, a.reverse, by rw [he]; simp, ?_⟩
    intro y hy
    simpa using hb y (List.mem_reverse.mp hy)

/-- what is said, by the last symbol of the name -/
theorem said_iff (used : Bytes → Prop) (pre : List Sym) (s : Sym) (k : Kind) : Said used pre s k ↔
    match last pre s.to_.name with
    | none => k = .unused ∧ ¬ used s.to_.name ∧ ¬ Marked s
    | some x => (Same x s ∧ k = .duplicate x.from_.namePos.line) ∨ (¬ Same x s ∧ k = .different x.from_.namePos.line) := by
  constructor
  · intro h
    cases h with
    | unused h1 h2 h3 => rw [(last_none _ _).mpr h1]; exact ⟨rfl, h2, h3⟩
    | duplicate a x b he hn hb hs => rw [(last_some _ _ x).mpr ⟨hn, a, b, he, hb⟩]; exact .inl ⟨hs, rfl⟩
    | different a x b he hn hb hs => rw [(last_some _ _ x).mpr ⟨hn, a, b, he, hb⟩]; exact .inr ⟨hs, rfl⟩
  · cases hl : last pre s.to_.name with
    | none =>
      rintro ⟨rfl, h2, h3⟩
      exact .unused ((last_none _ _).mp hl) h2 h3
    | some x =>
      obtain ⟨hn, a, b, he, hb⟩ := (last_some _ _ _).mp hl
      rintro (⟨hs, rfl⟩ | ⟨hs, rfl⟩)
      · exact .duplicate a x b he hn hb hs
      · exact .different a x b he hn hb hs

/-- the entry of the map for a symbol -/
def origin (s : Sym) : Origin := ⟨s.token, s.from_.name, s.from_.namePos.line⟩

/-- the map describes the symbols loaded so far -/
def Inv (m : Loaded) (pre : List Sym) : Prop := ∀ n, m.lookup n = (last pre n).map origin

theorem Inv.cons {m : Loaded} {pre : List Sym} (h : Inv m pre) (s : Sym) : Inv ((s.to_.name, origin s) :: m) (pre ++ [s]) := by
  intro n
  rw [last_append, List.lookup_cons, h n]
  by_cases hn : s.to_.name = n
  · subst hn; simp
  · have : (n == s.to_.name) = false := by simpa using fun e => hn e.symm
    simp [hn, this]

theorem checkArgs_checked (used : List Bytes) (P : Bytes → Prop) (hP : ∀ n, n ∈ used ↔ P n) (e : Expr) (token : Bytes) (l : List LoadArg) :
    ∀ m pre, Inv m pre →
      let ss := l.map fun q => (⟨e, token, q.1, q.2⟩ : Sym)
      ∃ ks, Checked P pre ss (checkArgs used (containsComments e b!"@unused") token m l).2.2 ks ∧
        (checkArgs used (containsComments e b!"@unused") token m l).2.1 = ks.map (fun s => (s.from_, s.to_)) ∧
        Inv (checkArgs used (containsComments e b!"@unused") token m l).1 (pre ++ ss) := by
  induction l with
  | nil =>
    intro m pre hi
    exact ⟨[], .nil _, rfl, by simpa [checkArgs] using hi⟩
  | cons q l ih =>
    intro m pre hi
    let s : Sym := ⟨e, token, q.1, q.2⟩
    obtain ⟨ks, h1, h2, h3⟩ := ih ((q.2.name, ⟨token, q.1.name, q.1.namePos.line⟩) :: m) (pre ++ [s]) (hi.cons s)
    have hl := hi q.2.name
    simp only [List.map_cons, checkArgs]
    rw [List.append_assoc, List.singleton_append] at h3
    cases hlast : last pre q.2.name with
    | none =>
      rw [hlast] at hl
      simp only [Option.map_none] at hl
      rw [hl]
      dsimp only
      have hsaid : ∀ k, Said P pre s k ↔ k = .unused ∧ ¬ P q.2.name ∧ ¬ Marked s := by
        intro k
        have := said_iff P pre s k
        rw [show s.to_.name = q.2.name from rfl, hlast] at this
        exact this
      have hmk : Marked s ↔ (containsComments e b!"@unused" = true ∨ containsComments (.ident q.2) b!"@unused" = true ∨
          containsComments (.ident q.1) b!"@unused" = true) := by
        rw [kept_iff, kept_iff, kept_iff]; exact Iff.rfl
      split
      · rename_i hc
        simp only [Bool.and_eq_true, Bool.not_eq_true', List.contains_eq_mem, decide_eq_false_iff_not] at hc
        have hsd : Said P pre s .unused := (hsaid _).mpr ⟨rfl, fun h => hc.1.1.1 ((hP _).mpr h), by
          rw [hmk]; simp [hc]⟩
        exact ⟨ks, .removed _ _ _ _ _ _ hsd (.inl hsd) h1, h2, h3⟩
      · rename_i hc
        refine ⟨s :: ks, .quiet _ _ _ _ _ ?_ h1, by simp [h2, s], h3⟩
        intro k hk
        obtain ⟨_, hu, hm⟩ := (hsaid k).mp hk
        rw [hmk] at hm
        simp only [not_or, Bool.not_eq_true] at hm
        apply hc
        have hu' : ¬ q.2.name ∈ used := fun h => hu ((hP _).mp h)
        simp [hu', hm]
    | some x =>
      rw [hlast] at hl
      simp only [Option.map_some] at hl
      rw [hl]
      dsimp only
      have hsaid : ∀ k, Said P pre s k ↔ (Same x s ∧ k = .duplicate x.from_.namePos.line) ∨ (¬ Same x s ∧ k = .different x.from_.namePos.line) := by
        intro k
        have := said_iff P pre s k
        rw [show s.to_.name = q.2.name from rfl, hlast] at this
        exact this
      by_cases hs : Same x s
      · rw [if_pos (show (origin x).label = token ∧ (origin x).from_ = q.1.name from hs)]
        have hsd : Said P pre s (.duplicate x.from_.namePos.line) := (hsaid _).mpr (.inl ⟨hs, rfl⟩)
        exact ⟨ks, .removed _ _ _ _ _ _ hsd (.inr ⟨_, hsd⟩) h1, h2, h3⟩
      · rw [if_neg (show ¬ ((origin x).label = token ∧ (origin x).from_ = q.1.name) from hs)]
        have hsd : Said P pre s (.different x.from_.namePos.line) := (hsaid _).mpr (.inr ⟨hs, rfl⟩)
        refine ⟨s :: ks, .kept _ _ _ _ _ _ hsd ?_ h1, by simp [h2, s], h3⟩
        rintro (h | ⟨_, h⟩)
        · rcases (hsaid _).mp h with ⟨h, _⟩ | ⟨_, h⟩
          · exact hs h
          · cases h
        · rcases (hsaid _).mp h with ⟨h, _⟩ | ⟨_, h⟩
          · exact hs h
          · cases h

theorem checked_append (P : Bytes → Prop) (pre a : List Sym) (fs ks) (h : Checked P pre a fs ks) :
    ∀ b fs' ks', Checked P (pre ++ a) b fs' ks' → Checked P pre (a ++ b) (fs ++ fs') (ks ++ ks') := by
  induction h with
  | nil pre => intro b fs' ks' h; simpa using h
  | quiet pre s l fs ks hk _ ih =>
    intro b fs' ks' h
    exact .quiet _ _ _ _ _ hk (ih _ _ _ (by simpa using h))
  | removed pre s l fs ks k hk hs _ ih =>
    intro b fs' ks' h
    exact .removed _ _ _ _ _ _ hk hs (ih _ _ _ (by simpa using h))
  | kept pre s l fs ks k hk hs _ ih =>
    intro b fs' ks' h
    exact .kept _ _ _ _ _ _ hk hs (ih _ _ _ (by simpa using h))

theorem checkLoads_checked (srt : List LoadArg → List LoadArg) (used : List Bytes) (P : Bytes → Prop) (hP : ∀ n, n ∈ used ↔ P n)
    (l : List Expr) : ∀ m pre i, Inv m pre → ∃ ks, Checked P pre (syms l) ((checkLoads srt used m i l).flatMap (·.1)) ks := by
  induction l with
  | nil => intro m pre i _; exact ⟨[], .nil _⟩
  | cons e l ih =>
    intro m pre i hi
    have other : syms1 e = [] → checkLoads srt used m i (e :: l) = checkLoads srt used m (i + 1) l →
        ∃ ks, Checked P pre (syms (e :: l)) ((checkLoads srt used m i (e :: l)).flatMap (·.1)) ks := by
      intro h1 h2
      rw [h2]; unfold syms; rw [List.flatMap_cons, h1]
      exact ih m pre (i + 1) hi
    cases e
    case load c p mo f t r fc =>
      obtain ⟨ks, h1, h2, h3⟩ := checkArgs_checked used P hP (.load c p mo f t r fc) mo.token (f.zip t) m pre hi
      obtain ⟨ks', h4⟩ := ih _ _ (i + 1) h3
      refine ⟨ks ++ ks', ?_⟩
      unfold syms at h4 ⊢
      rw [List.flatMap_cons]
      have := checked_append _ _ _ _ _ h1 _ _ _ h4
      simp only [checkLoads]
      cases hf : (checkArgs used (containsComments (.load c p mo f t r fc) b!"@unused") mo.token m (f.zip t)).2.2 with
      | nil => rw [hf] at this; exact this
      | cons w ws => rw [hf] at this; exact this
    all_goals exact other rfl rfl

/-- **C73 (the report).** The findings are exactly these: a symbol whose local name has not been loaded before in the file, that is not
used (as a name or in a type annotation) and not marked, is unused; one whose local name has been loaded before, most recently from the
same place, is a duplicate, and otherwise clashes. -/
theorem C73_reported_exactly (srt : List LoadArg → List LoadArg) (f : File) :
    ∃ ks, Checked (Needs f.stmts) [] (syms f.stmts) ((unusedLoadWarning srt f).flatMap (·.1)) ks :=
  checkLoads_checked srt _ _ (used_iff f) f.stmts [] [] 0 (fun _ => rfl)

/-! ### Proofs: the fix -/

theorem zip_maps (k : List LoadArg) : (k.map (·.1)).zip (k.map (·.2)) = k := by
  induction k with
  | nil => rfl
  | cons q k ih => simp [ih]

theorem newStmt_eq (srt : List LoadArg → List LoadArg) (c p m f t r fc) (k : List LoadArg) :
    newStmt srt (.load c p m f t r fc) k =
      if sortLoadPairs srt k = [] then .nil
      else .load c p m ((sortLoadPairs srt k).map (·.1)) ((sortLoadPairs srt k).map (·.2)) r fc := by
  unfold newStmt sortLoadArgs
  simp only [zip_maps]
  cases sortLoadPairs srt k with
  | nil => rfl
  | cons q k => simp

theorem sortLoadPairs_nil (srt : List LoadArg → List LoadArg) (hs : Sorts loadArgLess srt) (k : List LoadArg) :
    sortLoadPairs srt k = [] ↔ k = [] := by
  constructor
  · intro h
    cases k with
    | nil => rfl
    | cons q k =>
      have := ((C20_any_load srt hs (q :: k)).2.1 q.2.name).mpr (by simp)
      rw [h] at this; cases this
  · rintro rfl
    unfold sortLoadPairs
    have := (hs []).1
    rw [List.perm_nil.mp this]; rfl

theorem applyFix_cons (dis : List Expr → Nat → Bool) (w : UF) (ws : List UF) (i : Nat) (e' : Expr) (rs) (stmts : List Expr) :
    applyFix dis ((w :: ws, i, e') :: rs) stmts =
      applyFix dis rs (if dis stmts w.to_.namePos.line then stmts else stmts.set i e') := rfl

theorem set_at (a : List Expr) (e e' : Expr) (l : List Expr) : (a ++ e :: l).set a.length e' = a ++ e' :: l := by
  simp

theorem fix_fixed (srt : List LoadArg → List LoadArg) (hs : Sorts loadArgLess srt) (dis : List Expr → Nat → Bool) (used : List Bytes)
    (P : Bytes → Prop) (hP : ∀ n, n ∈ used ↔ P n) (l : List Expr) :
    ∀ m pre a, Inv m pre → ∃ l', applyFix dis (checkLoads srt used m a.length l) (a ++ l) = a ++ l' ∧
      Fixed P (∀ s n, dis s n = false) pre l l' := by
  induction l with
  | nil => intro m pre a _; exact ⟨[], rfl, .nil _⟩
  | cons e l ih =>
    intro m pre a hi
    have step : ∀ m' pre' e', Inv m' pre' →
        ∃ l', applyFix dis (checkLoads srt used m' (a.length + 1) l) (a ++ e' :: l) = a ++ e' :: l' ∧
          Fixed P (∀ s n, dis s n = false) pre' l l' := by
      intro m' pre' e' hi'
      obtain ⟨l', h1, h2⟩ := ih m' pre' (a ++ [e']) hi'
      refine ⟨l', ?_, h2⟩
      simpa using h1
    have other : syms1 e = [] → checkLoads srt used m a.length (e :: l) = checkLoads srt used m (a.length + 1) l →
        ∃ l', applyFix dis (checkLoads srt used m a.length (e :: l)) (a ++ e :: l) = a ++ l' ∧
          Fixed P (∀ s n, dis s n = false) pre (e :: l) l' := by
      intro h1 h2
      obtain ⟨l', h3, h4⟩ := step m pre e hi
      exact ⟨e :: l', by rw [h2]; exact h3, .other _ _ _ _ h1 h4⟩
    cases e
    case load c p mo f t r fc =>
      obtain ⟨ks, h1, h2, h3⟩ := checkArgs_checked used P hP (.load c p mo f t r fc) mo.token (f.zip t) m pre hi
      simp only [checkLoads]
      cases hf : (checkArgs used (containsComments (.load c p mo f t r fc) b!"@unused") mo.token m (f.zip t)).2.2 with
      | nil =>
        rw [hf] at h1
        obtain ⟨l', h4, h5⟩ := step _ _ (.load c p mo f t r fc) h3
        exact ⟨_, h4, .same _ _ _ _ _ _ h1 (fun _ => rfl) h5⟩
      | cons w ws =>
        rw [hf] at h1
        dsimp only
        rw [applyFix_cons]
        by_cases hd : dis (a ++ .load c p mo f t r fc :: l) w.to_.namePos.line = true
        · rw [if_pos hd]
          obtain ⟨l', h4, h5⟩ := step _ _ (.load c p mo f t r fc) h3
          exact ⟨_, h4, .same _ _ _ _ _ _ h1 (fun hall => by rw [hall] at hd; cases hd) h5⟩
        · rw [if_neg hd, set_at, newStmt_eq, h2]
          by_cases hk : ks = []
          · subst hk
            rw [List.map_nil, if_pos ((sortLoadPairs_nil srt hs _).mpr rfl)]
            obtain ⟨l', h4, h5⟩ := step _ _ .nil h3
            exact ⟨_, h4, .gone _ _ _ _ _ h1 (by simp) h5⟩
          · have hk' : ¬ ks.map (fun s => (s.from_, s.to_)) = [] := by simpa using hk
            rw [if_neg (by rw [sortLoadPairs_nil srt hs]; exact hk')]
            obtain ⟨l', h4, h5⟩ := step _ _ (.load c p mo ((sortLoadPairs srt (ks.map fun s => (s.from_, s.to_))).map (·.1))
              ((sortLoadPairs srt (ks.map fun s => (s.from_, s.to_))).map (·.2)) r fc) h3
            refine ⟨_, h4, .changed _ _ _ _ _ _ _ _ _ _ _ _ _ h1 (by simp) ?_ ?_ ?_ ?_ h5⟩
            · rw [Ne, sortLoadPairs_nil srt hs]; exact hk'
            · intro q hq
              obtain ⟨s, hs', rfl⟩ := List.mem_map.mp ((C20_any_load srt hs _).1 q hq)
              exact ⟨s, hs', rfl⟩
            · intro hn
              refine (C20_preserves_bindings srt hs _ ?_).1
              rw [List.map_map]; exact hn
            · exact (C20_any_load srt hs _).2.2.1
    all_goals exact other rfl rfl

/-- **C73 (the fix).** What the fix does to each statement, whichever findings are disabled. -/
theorem C73_statements (srt : List LoadArg → List LoadArg) (hs : Sorts loadArgLess srt) (dis : List Expr → Nat → Bool) (f : File) :
    Fixed (Needs f.stmts) (∀ s n, dis s n = false) [] f.stmts (applyFix dis (unusedLoadWarning srt f) f.stmts) := by
  obtain ⟨l', h1, h2⟩ := fix_fixed srt hs dis _ _ (used_iff f) f.stmts [] [] [] (fun _ => rfl)
  have : applyFix dis (unusedLoadWarning srt f) f.stmts = l' := h1
  rw [this]; exact h2

/-! ### Proofs: meaning -/

/-- the bindings of symbols: module (by the way it is written), name there, local name -/
theorem bindings_syms (val : Bytes → Bytes) (e : Expr) (hv : ∀ c p m f t r fc, e = .load c p m f t r fc → val m.token = m.value) :
    bindings1 e = (syms1 e).map fun s => (val s.token, s.from_.name, s.to_.name) := by
  cases e
  case load c p m f t r fc =>
    simp only [bindings1, syms1, List.map_map]
    rw [show m.value = val m.token from (hv _ _ _ _ _ _ _ rfl).symm]
    rfl
  all_goals rfl

/-- the value of a symbol -/
def value (val : Bytes → Bytes) (s : Sym) : Bytes × Bytes := (val s.token, s.from_.name)

theorem cur_syms (val : Bytes → Bytes) (n : Bytes) (pre : List Sym) :
    cur n none (pre.map fun s => (val s.token, s.from_.name, s.to_.name)) = (last pre n).map (value val) := by
  rw [cur_eq, ← List.map_reverse]
  simp only [Option.or_none]
  unfold last
  induction pre.reverse with
  | nil => rfl
  | cons s l ih =>
    rw [List.map_cons, List.find?_cons, List.find?_cons]
    by_cases h : s.to_.name = n
    · simp [h, value]
    · simp only [h, decide_false]; exact ih

theorem value_same (val : Bytes → Bytes) (s x : Sym) (h : Same x s) : value val x = value val s := by
  unfold value; rw [h.1, h.2]

/-- for a used name, the remaining symbols of a load mean what all of them mean -/
theorem checked_cur (val : Bytes → Bytes) (P : Bytes → Prop) (n : Bytes) (hn : P n) (pre l : List Sym) (fs ks) (h : Checked P pre l fs ks) :
    cur n ((last pre n).map (value val)) (ks.map fun s => (val s.token, s.from_.name, s.to_.name)) = (last (pre ++ l) n).map (value val) := by
  induction h with
  | nil pre => simp [cur]
  | quiet pre s l fs ks _ _ ih | kept pre s l fs ks k _ _ _ ih =>
    rw [last_append] at ih
    rw [List.append_assoc, List.singleton_append] at ih
    rw [← ih, List.map_cons]
    show cur n (if s.to_.name = n then some (val s.token, s.from_.name) else _) _ = _
    by_cases h : s.to_.name = n
    · rw [if_pos h, if_pos h]; rfl
    · rw [if_neg h, if_neg h]
  | removed pre s l fs ks k hk hsup _ ih =>
    rw [last_append] at ih
    rw [List.append_assoc, List.singleton_append] at ih
    rw [← ih]
    by_cases h : s.to_.name = n
    · rw [if_pos h]
      have : last pre n ≠ none ∧ ∀ x, last pre n = some x → Same x s := by
        rw [← h]
        rcases hsup with hs | ⟨line, hs⟩
        · have := (said_iff _ _ _ _).mp hs
          cases hl : last pre s.to_.name with
          | none => rw [hl] at this; exact absurd (h ▸ hn) this.2.1
          | some x =>
            rw [hl] at this
            rcases this with ⟨_, h⟩ | ⟨_, h⟩ <;> cases h
        · have := (said_iff _ _ _ _).mp hs
          cases hl : last pre s.to_.name with
          | none => rw [hl] at this; cases this.1
          | some x =>
            rw [hl] at this
            rcases this with ⟨h, _⟩ | ⟨_, h⟩
            · exact ⟨by simp, fun y hy => by cases hy; exact h⟩
            · cases h
      cases hl : last pre n with
      | none => exact absurd hl this.1
      | some x => simp only [Option.map_some, value_same val s x (this.2 x hl)]
    · rw [if_neg h]

theorem checked_sub (P : Bytes → Prop) (pre l : List Sym) (fs ks) (h : Checked P pre l fs ks) : ks.Sublist l := by
  induction h with
  | nil => exact .slnil
  | quiet _ _ _ _ _ _ _ ih | kept _ _ _ _ _ _ _ _ _ ih => exact ih.cons_cons _
  | removed _ _ _ _ _ _ _ _ _ ih => exact ih.cons _

/-- a name whose last symbol is the one loaded again is not loaded again -/
theorem checked_again (P : Bytes → Prop) (n : Bytes) (pre l : List Sym) (fs ks) (h : Checked P pre l fs ks) :
    ∀ x, last pre n = some x → (∀ s ∈ l, s.to_.name = n → Same x s) → ∀ s ∈ ks, s.to_.name ≠ n := by
  induction h with
  | nil => intro x _ _ s hs; cases hs
  | quiet pre s l fs ks hq _ ih | kept pre s l fs ks k hk hq _ ih =>
    intro x hx hall s' hs'
    have hsn : s.to_.name ≠ n := by
      intro hn
      have hsm := hall s List.mem_cons_self hn
      have hsaid : Said P pre s (.duplicate x.from_.namePos.line) := by
        rw [said_iff, hn, hx]; exact .inl ⟨hsm, rfl⟩
      first | exact hq _ hsaid | exact hq (.inr ⟨_, hsaid⟩)
    rcases List.mem_cons.mp hs' with rfl | hs'
    · exact hsn
    · refine ih x ?_ (fun y hy => hall y (List.mem_cons_of_mem _ hy)) s' hs'
      rw [last_append, if_neg hsn]; exact hx
  | removed pre s l fs ks k hk hq _ ih =>
    intro x hx hall s' hs'
    by_cases hsn : s.to_.name = n
    · refine ih s (by rw [last_append, if_pos hsn]) ?_ s' hs'
      intro y hy hyn
      have h1 := hall s List.mem_cons_self hsn
      have h2 := hall y (List.mem_cons_of_mem _ hy) hyn
      exact ⟨h1.1.symm.trans h2.1, h1.2.symm.trans h2.2⟩
    · refine ih x ?_ (fun y hy => hall y (List.mem_cons_of_mem _ hy)) s' hs'
      rw [last_append, if_neg hsn]; exact hx

theorem checked_nodup (P : Bytes → Prop) (pre l : List Sym) (fs ks) (h : Checked P pre l fs ks) :
    (∀ s ∈ l, ∀ s' ∈ l, s.to_.name = s'.to_.name → Same s s') → (ks.map (·.to_.name)).Nodup := by
  induction h with
  | nil => intro _; exact .nil
  | quiet pre s l fs ks _ hc ih | kept pre s l fs ks k _ _ hc ih =>
    intro hall
    rw [List.map_cons, List.nodup_cons]
    refine ⟨?_, ih fun a ha b hb => hall a (List.mem_cons_of_mem _ ha) b (List.mem_cons_of_mem _ hb)⟩
    intro hmem
    obtain ⟨y, hy, hyn⟩ := List.mem_map.mp hmem
    refine checked_again P s.to_.name _ _ _ _ hc s (by rw [last_append, if_pos rfl]) ?_ y hy hyn
    intro z hz hzn
    exact hall s List.mem_cons_self z (List.mem_cons_of_mem _ hz) hzn.symm
  | removed pre s l fs ks k _ _ _ ih =>
    intro hall
    exact ih fun a ha b hb => hall a (List.mem_cons_of_mem _ ha) b (List.mem_cons_of_mem _ hb)

theorem nodup_inj {α β} (g : α → β) (l : List α) (h : (l.map g).Nodup) : ∀ a ∈ l, ∀ b ∈ l, g a = g b → a = b := by
  induction l with
  | nil => intro a ha; cases ha
  | cons x l ih =>
    rw [List.map_cons, List.nodup_cons] at h
    intro a ha b hb hab
    rcases List.mem_cons.mp ha with rfl | ha' <;> rcases List.mem_cons.mp hb with rfl | hb'
    · rfl
    · exact absurd (List.mem_map.mpr ⟨b, hb', hab.symm⟩) h.1
    · exact absurd (List.mem_map.mpr ⟨a, ha', hab⟩) h.1
    · exact ih h.2 a ha' b hb' hab

/-- the order of bindings of different names does not matter -/
theorem cur_perm (n : Bytes) (a b : List (Bytes × Bytes × Bytes)) (hp : a.Perm b) (hn : (b.map (·.2.2)).Nodup) (d) :
    cur n d a = cur n d b := by
  by_cases h : ∃ x ∈ b, x.2.2 = n
  · obtain ⟨x, hx, hxn⟩ := h
    have hb : ∀ y ∈ b, y.2.2 = n → (y.1, y.2.1) = (x.1, x.2.1) := by
      intro y hy hyn
      rw [nodup_inj (·.2.2) b hn y hy x hx (hyn.trans hxn.symm)]
    rw [cur_same n (x.1, x.2.1) b hb ⟨x, hx, hxn⟩,
      cur_same n (x.1, x.2.1) a (fun y hy => hb y (hp.mem_iff.mp hy)) ⟨x, hp.mem_iff.mpr hx, hxn⟩]
  · rw [cur_none n b (fun x hx hxn => h ⟨x, hx, hxn⟩), cur_none n a (fun x hx hxn => h ⟨x, hp.mem_iff.mp hx, hxn⟩)]

theorem fixed_cur (val : Bytes → Bytes) (P : Bytes → Prop) (all : Prop) (n : Bytes) (hn : P n) (pre : List Sym) (l l' : List Expr)
    (h : Fixed P all pre l l') :
    (∀ e ∈ l, ∀ c p m f t r fc, e = .load c p m f t r fc → val m.token = m.value) →
    (∀ e ∈ l, ∀ s ∈ syms1 e, ∀ s' ∈ syms1 e, s.to_.name = s'.to_.name → Same s s') →
    cur n ((last pre n).map (value val)) (l'.flatMap bindings1) = (last (pre ++ syms l) n).map (value val) := by
  have base : ∀ (pre : List Sym) (e : Expr), (∀ c p m f t r fc, e = .load c p m f t r fc → val m.token = m.value) →
      cur n ((last pre n).map (value val)) (bindings1 e) = (last (pre ++ syms1 e) n).map (value val) := by
    intro pre e hv
    rw [bindings_syms val e hv, ← cur_syms, ← cur_append, ← List.map_append, cur_syms]
  induction h with
  | nil pre => intro _ _; simp [cur, syms]
  | other pre e l l' he _ ih =>
    intro hv hd
    rw [List.flatMap_cons, cur_append, base pre e (hv e List.mem_cons_self), he, List.append_nil,
      ih (fun e he => hv e (List.mem_cons_of_mem _ he)) (fun e he => hd e (List.mem_cons_of_mem _ he))]
    unfold syms; rw [List.flatMap_cons, he]; rfl
  | same pre e l l' fs ks _ _ _ ih =>
    intro hv hd
    rw [List.flatMap_cons, cur_append, base pre e (hv e List.mem_cons_self),
      ih (fun e he => hv e (List.mem_cons_of_mem _ he)) (fun e he => hd e (List.mem_cons_of_mem _ he))]
    unfold syms; rw [List.flatMap_cons, List.append_assoc]
  | gone pre e l l' fs hc _ _ ih =>
    intro hv hd
    rw [List.flatMap_cons, cur_append]
    have := checked_cur val P n hn _ _ _ _ hc
    rw [List.map_nil] at this
    rw [show bindings1 Expr.nil = [] from rfl, this,
      ih (fun e he => hv e (List.mem_cons_of_mem _ he)) (fun e he => hd e (List.mem_cons_of_mem _ he))]
    unfold syms; rw [List.flatMap_cons, List.append_assoc]
  | changed pre c p m f t r fc l l' fs ks k hc _ _ _ hp _ _ ih =>
    intro hv hd
    have hnd := checked_nodup _ _ _ _ _ hc (hd _ List.mem_cons_self)
    have htok : ∀ s ∈ ks, val s.token = m.value := by
      intro s hs
      obtain ⟨q, _, rfl⟩ := List.mem_map.mp ((checked_sub _ _ _ _ _ hc).subset hs)
      exact hv _ List.mem_cons_self _ _ _ _ _ _ _ rfl
    have hb : (k.map fun q => (m.value, q.1.name, q.2.name)).Perm (ks.map fun s => (val s.token, s.from_.name, s.to_.name)) := by
      have h1 := (hp hnd).map fun q : LoadArg => (m.value, q.1.name, q.2.name)
      rw [List.map_map] at h1
      have h2 : (ks.map fun s => (val s.token, s.from_.name, s.to_.name)) =
          ks.map ((fun q : LoadArg => (m.value, q.1.name, q.2.name)) ∘ fun s => (s.from_, s.to_)) :=
        List.map_congr_left fun s hs => by simp [htok s hs]
      rw [h2]; exact h1
    rw [List.flatMap_cons, cur_append, bindings1_load, cur_perm n _ _ hb (by rw [List.map_map]; exact hnd),
      checked_cur val P n hn _ _ _ _ hc,
      ih (fun e he => hv e (List.mem_cons_of_mem _ he)) (fun e he => hd e (List.mem_cons_of_mem _ he))]
    unfold syms; rw [List.flatMap_cons, List.append_assoc]

/-- **C73 (meaning).** Whichever findings are disabled, after the fix every name the file needs — as a name or in a type annotation —
means what it meant before, provided that the way a module is written determines the module (`val`), and that no load gives one local
name to two different symbols (Starlark rejects such loads). -/
theorem C73_meaning (srt : List LoadArg → List LoadArg) (hs : Sorts loadArgLess srt) (dis : List Expr → Nat → Bool) (f : File)
    (val : Bytes → Bytes) (hval : ∀ c p m fr t r fc, .load c p m fr t r fc ∈ f.stmts → val m.token = m.value)
    (hdis : ∀ e ∈ f.stmts, ∀ s ∈ syms1 e, ∀ s' ∈ syms1 e, s.to_.name = s'.to_.name → s.from_.name = s'.from_.name)
    (n : Bytes) (hn : Needs f.stmts n) :
    meaning n (applyFix dis (unusedLoadWarning srt f) f.stmts) = meaning n f.stmts := by
  have hv : ∀ e ∈ f.stmts, ∀ c p m fr t r fc, e = .load c p m fr t r fc → val m.token = m.value :=
    fun e he c p m fr t r fc h => hval c p m fr t r fc (h ▸ he)
  have h1 := fixed_cur val _ _ n hn _ _ _ (C73_statements srt hs dis f) hv ?_
  · rw [meaning_cur, meaning_cur]
    have h2 : cur n none (f.stmts.flatMap bindings1) = (last (syms f.stmts) n).map (value val) := by
      rw [← cur_syms]
      congr 1
      unfold syms
      rw [List.map_flatMap]
      have : ∀ l : List Expr, (∀ e ∈ l, ∀ c p m fr t r fc, e = .load c p m fr t r fc → val m.token = m.value) →
          l.flatMap bindings1 = l.flatMap fun a => (syms1 a).map fun s => (val s.token, s.from_.name, s.to_.name) := by
        intro l
        induction l with
        | nil => intro _; rfl
        | cons e l ih =>
          intro h
          rw [List.flatMap_cons, List.flatMap_cons, bindings_syms val e (h e List.mem_cons_self), ih fun e he => h e (List.mem_cons_of_mem _ he)]
      exact this f.stmts hv
    rw [h2]
    simpa [last] using h1
  · intro e he s hs' s' hs'' hname
    refine ⟨?_, hdis e he s hs' s' hs'' hname⟩
    cases e
    case load =>
      obtain ⟨q, _, rfl⟩ := List.mem_map.mp hs'
      obtain ⟨q', _, rfl⟩ := List.mem_map.mp hs''
      rfl
    all_goals cases hs'

/-! ### Proofs: again -/

theorem uses_load (n : Bytes) (c p m f t r fc) : ¬ Uses n (.load c p m f t r fc) := by
  intro h
  cases h with
  | inside _ _ _ h => exact h _ _ _ _ _ _ _ rfl

theorem typed_load (n : Bytes) (c p m f t r fc) : ¬ Typed n (.load c p m f t r fc) := by
  intro h
  cases h with
  | inside _ _ h => exact h _ _ _ _ _ _ _ rfl

theorem uses_nil (n : Bytes) : ¬ Uses n .nil := by
  intro h
  cases h with
  | inside _ _ _ _ h => cases h

theorem typed_nil (n : Bytes) : ¬ Typed n .nil := by
  intro h
  cases h with
  | inside _ _ _ h => cases h

theorem needs_cons (e : Expr) (l : List Expr) (n : Bytes) : Needs (e :: l) n ↔ (Uses n e ∨ Typed n e) ∨ Needs l n := by
  unfold Needs; simp

theorem fixed_needs (P : Bytes → Prop) (all : Prop) (pre : List Sym) (l l' : List Expr) (h : Fixed P all pre l l') (n : Bytes) :
    Needs l' n ↔ Needs l n := by
  induction h with
  | nil => exact Iff.rfl
  | other _ _ _ _ _ _ ih | same _ _ _ _ _ _ _ _ _ ih => rw [needs_cons, needs_cons, ih]
  | changed _ c p m f t r fc l l' _ _ k _ _ _ _ _ _ _ ih =>
    rw [needs_cons, needs_cons, ih]
    simp [uses_load, typed_load]
  | gone _ e l l' fs hc hfs _ ih =>
    rw [needs_cons, needs_cons, ih]
    cases e
    case load => simp [uses_load, typed_load, uses_nil, typed_nil]
    all_goals (cases hc; exact absurd rfl hfs)

/-- **C73 (uses).** The fix does not change what the file needs. -/
theorem C73_needs (srt : List LoadArg → List LoadArg) (hs : Sorts loadArgLess srt) (dis : List Expr → Nat → Bool) (f : File) (n : Bytes) :
    Needs (applyFix dis (unusedLoadWarning srt f) f.stmts) n ↔ Needs f.stmts n :=
  fixed_needs _ _ _ _ _ (C73_statements srt hs dis f) n

theorem checked_first (P : Bytes → Prop) (pre l : List Sym) (fs ks) (h : Checked P pre l fs ks) :
    (∀ s ∈ pre ++ l, ∀ s' ∈ pre ++ l, s.to_.name = s'.to_.name → Same s s') →
    ∀ s ∈ ks, (∀ x ∈ pre, x.to_.name ≠ s.to_.name) ∧ (P s.to_.name ∨ Marked s) := by
  have notseen : ∀ (pre l : List Sym) (fs ks), Checked P pre l fs ks →
      (∀ s ∈ pre ++ l, ∀ s' ∈ pre ++ l, s.to_.name = s'.to_.name → Same s s') →
      ∀ s ∈ ks, ∀ x ∈ pre, x.to_.name ≠ s.to_.name := by
    intro pre l fs ks h hall s hs x hx hxn
    cases hl : last pre s.to_.name with
    | none => exact (last_none _ _).mp hl x hx hxn
    | some y =>
      obtain ⟨hyn, a, b, he, _⟩ := (last_some _ _ _).mp hl
      refine checked_again P s.to_.name _ _ _ _ h y hl ?_ s hs rfl
      intro z hz hzn
      exact hall y (by rw [he]; simp) z (by simp [hz]) (hyn.trans hzn.symm)
  induction h with
  | nil => intro _ s hs; cases hs
  | quiet pre s l fs ks hq hc ih =>
    intro hall s' hs'
    refine ⟨notseen _ _ _ _ (.quiet _ _ _ _ _ hq hc) hall s' hs', ?_⟩
    rcases List.mem_cons.mp hs' with rfl | hs'
    · apply Classical.byContradiction
      intro hnot
      rw [not_or] at hnot
      cases hl : last pre s'.to_.name with
      | none => exact hq .unused (by rw [said_iff, hl]; exact ⟨rfl, hnot⟩)
      | some y =>
        by_cases hsm : Same y s'
        · exact hq (.duplicate y.from_.namePos.line) (by rw [said_iff, hl]; exact .inl ⟨hsm, rfl⟩)
        · exact hq (.different y.from_.namePos.line) (by rw [said_iff, hl]; exact .inr ⟨hsm, rfl⟩)
    · exact (ih (by simpa using hall) s' hs').2
  | kept pre s l fs ks k hk hq hc ih =>
    intro hall s' hs'
    refine ⟨notseen _ _ _ _ (.kept _ _ _ _ _ _ hk hq hc) hall s' hs', ?_⟩
    rcases List.mem_cons.mp hs' with rfl | hs'
    · exfalso
      cases hk with
      | unused h1 h2 h3 => exact hq (.inl (.unused h1 h2 h3))
      | duplicate a x b h1 h2 h3 h4 => exact hq (.inr ⟨_, .duplicate a x b h1 h2 h3 h4⟩)
      | different a x b h1 h2 h3 h4 => exact h4 (hall x (by rw [h1]; simp) s' (by simp) h2)
    · exact (ih (by simpa using hall) s' hs').2
  | removed pre s l fs ks k hk hq hc ih =>
    intro hall s' hs'
    exact ⟨notseen _ _ _ _ (.removed _ _ _ _ _ _ hk hq hc) hall s' hs', (ih (by simpa using hall) s' hs').2⟩

theorem checked_none (P : Bytes → Prop) (pre l : List Sym) (fs ks) (h : Checked P pre l fs ks) (hf : fs = []) : ks = l := by
  induction h with
  | nil => rfl
  | quiet _ _ _ _ _ _ _ ih => rw [ih hf]
  | removed => cases hf
  | kept => cases hf

theorem checked_quiet (P : Bytes → Prop) (pre l : List Sym) (fs ks) (h : Checked P pre l fs ks) :
    ((pre ++ l).map (·.to_.name)).Nodup → (∀ s ∈ l, P s.to_.name ∨ Marked s) → fs = [] := by
  have no : ∀ (pre : List Sym) (s : Sym) (l : List Sym) (k : Kind), ((pre ++ s :: l).map (·.to_.name)).Nodup → (P s.to_.name ∨ Marked s) →
      ¬ Said P pre s k := by
    intro pre s l k hn hp hk
    rw [List.map_append, List.nodup_append] at hn
    have seen : ∀ a x b, pre = a ++ x :: b → x.to_.name = s.to_.name → False := by
      intro a x b he hx
      exact hn.2.2 x.to_.name (List.mem_map.mpr ⟨x, by rw [he]; simp, rfl⟩) s.to_.name (by simp) hx
    cases hk with
    | unused _ h2 h3 => exact hp.elim h2 h3
    | duplicate a x b h1 h2 => exact seen a x b h1 h2
    | different a x b h1 h2 => exact seen a x b h1 h2
  induction h with
  | nil => intro _ _; rfl
  | quiet pre s l fs ks _ _ ih =>
    intro hn hp
    exact ih (by simpa using hn) fun x hx => hp x (List.mem_cons_of_mem _ hx)
  | removed pre s l fs ks k hk => intro hn hp; exact absurd hk (no _ _ _ _ hn (hp s List.mem_cons_self))
  | kept pre s l fs ks k hk => intro hn hp; exact absurd hk (no _ _ _ _ hn (hp s List.mem_cons_self))

theorem syms1_load (c p) (mo : StringN) (k : List LoadArg) (r fc) :
    syms1 (.load c p mo (k.map (·.1)) (k.map (·.2)) r fc) =
      k.map fun q => ⟨.load c p mo (k.map (·.1)) (k.map (·.2)) r fc, mo.token, q.1, q.2⟩ := by
  simp only [syms1, zip_maps]

theorem fixed_clean (P : Bytes → Prop) (pre : List Sym) (l l' : List Expr) (h : Fixed P True pre l l') :
    (∀ s ∈ pre ++ syms l, ∀ s' ∈ pre ++ syms l, s.to_.name = s'.to_.name → Same s s') →
    ((syms l').map (·.to_.name)).Nodup ∧ (∀ s ∈ syms l', (∀ x ∈ pre, x.to_.name ≠ s.to_.name) ∧ (P s.to_.name ∨ Marked s)) := by
  have glue : ∀ (pre : List Sym) (e e' : Expr) (l l' : List Expr),
      ((syms1 e').map (·.to_.name)).Nodup → (∀ s ∈ syms1 e', s.to_.name ∈ (syms1 e).map (·.to_.name)) →
      (∀ s ∈ syms1 e', (∀ x ∈ pre, x.to_.name ≠ s.to_.name) ∧ (P s.to_.name ∨ Marked s)) →
      ((∀ s ∈ (pre ++ syms1 e) ++ syms l, ∀ s' ∈ (pre ++ syms1 e) ++ syms l, s.to_.name = s'.to_.name → Same s s') →
        ((syms l').map (·.to_.name)).Nodup ∧ (∀ s ∈ syms l', (∀ x ∈ pre ++ syms1 e, x.to_.name ≠ s.to_.name) ∧ (P s.to_.name ∨ Marked s))) →
      (∀ s ∈ pre ++ syms (e :: l), ∀ s' ∈ pre ++ syms (e :: l), s.to_.name = s'.to_.name → Same s s') →
      ((syms (e' :: l')).map (·.to_.name)).Nodup ∧
        (∀ s ∈ syms (e' :: l'), (∀ x ∈ pre, x.to_.name ≠ s.to_.name) ∧ (P s.to_.name ∨ Marked s)) := by
    intro pre e e' l l' h1 h2 h3 ih hall
    have hsy : syms (e :: l) = syms1 e ++ syms l := by unfold syms; rw [List.flatMap_cons]
    have hsy' : syms (e' :: l') = syms1 e' ++ syms l' := by unfold syms; rw [List.flatMap_cons]
    rw [hsy, ← List.append_assoc] at hall
    obtain ⟨i1, i2⟩ := ih hall
    rw [hsy']
    constructor
    · rw [List.map_append, List.nodup_append]
      refine ⟨h1, i1, ?_⟩
      intro a ha b hb
      obtain ⟨s, hs, rfl⟩ := List.mem_map.mp ha
      obtain ⟨s', hs', rfl⟩ := List.mem_map.mp hb
      obtain ⟨z, hz, hzn⟩ := List.mem_map.mp (h2 s hs)
      rw [← hzn]
      exact (i2 s' hs').1 z (by simp [hz])
    · intro s hs
      rcases List.mem_append.mp hs with hs | hs
      · exact h3 s hs
      · exact ⟨fun x hx => (i2 s hs).1 x (by simp [hx]), (i2 s hs).2⟩
  have sub : ∀ (pre : List Sym) (e : Expr) (l : List Expr),
      (∀ s ∈ pre ++ syms (e :: l), ∀ s' ∈ pre ++ syms (e :: l), s.to_.name = s'.to_.name → Same s s') →
      (∀ s ∈ pre ++ syms1 e, ∀ s' ∈ pre ++ syms1 e, s.to_.name = s'.to_.name → Same s s') := by
    intro pre e l h s hs s' hs'
    have : ∀ z ∈ pre ++ syms1 e, z ∈ pre ++ syms (e :: l) := by
      intro z hz
      unfold syms
      rw [List.flatMap_cons]
      rcases List.mem_append.mp hz with hz | hz <;> simp [hz]
    exact h s (this s hs) s' (this s' hs')
  induction h with
  | nil => intro _; exact ⟨.nil, fun s hs => by cases hs⟩
  | other pre e l l' he _ ih =>
    intro hall
    refine glue pre e e l l' (by rw [he]; exact .nil) (by rw [he]; intro s hs; cases hs) (by rw [he]; intro s hs; cases hs) ?_ hall
    rw [he, List.append_nil]; exact ih
  | same pre e l l' fs ks hc hfs _ ih =>
    intro hall
    have hk := checked_none _ _ _ _ _ hc (hfs trivial)
    rw [hk] at hc
    refine glue pre e e l l' ?_ (fun s hs => List.mem_map.mpr ⟨s, hs, rfl⟩) (checked_first _ _ _ _ _ hc (sub _ _ _ hall)) ih hall
    exact checked_nodup _ _ _ _ _ hc fun a ha b hb => sub _ _ _ hall a (by simp [ha]) b (by simp [hb])
  | gone pre e l l' fs hc _ _ ih =>
    intro hall
    exact glue pre e .nil l l' .nil (fun s hs => by cases hs) (fun s hs => by cases hs) ih hall
  | changed pre c p m f t r fc l l' fs ks k hc _ _ _ hp _ _ ih =>
    intro hall
    have hnd := checked_nodup _ _ _ _ _ hc fun a ha b hb => sub _ _ _ hall a (by simp [ha]) b (by simp [hb])
    have hf := checked_first _ _ _ _ _ hc (sub _ _ _ hall)
    have hk := hp hnd
    have hmem : ∀ q ∈ k, ∃ s ∈ ks, q = (s.from_, s.to_) := by
      intro q hq
      obtain ⟨s, hs, rfl⟩ := List.mem_map.mp (hk.mem_iff.mp hq)
      exact ⟨s, hs, rfl⟩
    refine glue pre _ _ l l' ?_ ?_ ?_ ih hall
    · rw [syms1_load, List.map_map]
      have h1 := hk.map fun q : LoadArg => q.2.name
      rw [List.map_map] at h1
      exact h1.nodup_iff.mpr hnd
    · intro s hs
      rw [syms1_load] at hs
      obtain ⟨q, hq, rfl⟩ := List.mem_map.mp hs
      obtain ⟨s', hs', rfl⟩ := hmem q hq
      exact List.mem_map.mpr ⟨s', (checked_sub _ _ _ _ _ hc).subset hs', rfl⟩
    · intro s hs
      rw [syms1_load] at hs
      obtain ⟨q, hq, rfl⟩ := List.mem_map.mp hs
      obtain ⟨s', hs', rfl⟩ := hmem q hq
      obtain ⟨h1, h2⟩ := hf s' hs'
      refine ⟨h1, h2.imp id ?_⟩
      obtain ⟨z, _, rfl⟩ := List.mem_map.mp ((checked_sub _ _ _ _ _ hc).subset hs')
      exact Or.imp (kept_comments _ _ _ _ _ _ _ _ _ _ _ _ _) id

theorem checkLoads_findings (srt : List LoadArg → List LoadArg) (used : List Bytes) (l : List Expr) :
    ∀ m i, (checkLoads srt used m i l).flatMap (·.1) = [] → checkLoads srt used m i l = [] := by
  induction l with
  | nil => intro m i _; rfl
  | cons e l ih =>
    intro m i h
    cases e
    case load c p mo f t r fc =>
      simp only [checkLoads] at h ⊢
      cases hf : (checkArgs used (containsComments (.load c p mo f t r fc) b!"@unused") mo.token m (f.zip t)).2.2 with
      | nil => rw [hf] at h; exact ih _ _ h
      | cons w ws => rw [hf] at h; simp at h
    all_goals exact ih _ _ h

theorem fixed_all (P : Bytes → Prop) (all : Prop) (ha : all) (pre l l') (h : Fixed P all pre l l') : Fixed P True pre l l' := by
  induction h with
  | nil => exact .nil _
  | other _ _ _ _ h1 _ ih => exact .other _ _ _ _ h1 ih
  | same _ _ _ _ _ _ h1 h2 _ ih => exact .same _ _ _ _ _ _ h1 (fun _ => h2 ha) ih
  | gone _ _ _ _ _ h1 h2 _ ih => exact .gone _ _ _ _ _ h1 h2 ih
  | changed _ _ _ _ _ _ _ _ _ _ _ _ _ h1 h2 h3 h4 h5 h6 _ ih => exact .changed _ _ _ _ _ _ _ _ _ _ _ _ _ h1 h2 h3 h4 h5 h6 ih

/-- **C73 (clean afterwards).** If no local name is loaded from two places, then after the fix (with nothing disabled) every local name
is loaded once, is used or marked, and the check has nothing more to say. -/
theorem C73_clean (srt srt' : List LoadArg → List LoadArg) (hs : Sorts loadArgLess srt) (f : File)
    (hcons : ∀ s ∈ syms f.stmts, ∀ s' ∈ syms f.stmts, s.to_.name = s'.to_.name → Same s s') :
    let f' : File := { f with stmts := applyFix (fun _ _ => false) (unusedLoadWarning srt f) f.stmts }
    ((syms f'.stmts).map (·.to_.name)).Nodup ∧ (∀ s ∈ syms f'.stmts, Needs f'.stmts s.to_.name ∨ Marked s) ∧
      unusedLoadWarning srt' f' = [] := by
  intro f'
  have hfix := C73_statements srt hs (fun _ _ => false) f
  have hc := fixed_clean _ _ _ _ (fixed_all _ _ (fun _ _ => rfl) _ _ _ hfix) hcons
  have hneed : ∀ s ∈ syms f'.stmts, Needs f'.stmts s.to_.name ∨ Marked s :=
    fun s h => (hc.2 s h).2.imp (C73_needs srt hs (fun _ _ => false) f _).mpr id
  refine ⟨hc.1, hneed, ?_⟩
  obtain ⟨ks, hk⟩ := C73_reported_exactly srt' f'
  exact checkLoads_findings _ _ _ _ _ (checked_quiet _ _ _ _ _ hk hc.1 hneed)

/-- **C73 (marked).** A symbol that is marked (or whose load is), whose local name has not been loaded before, is not reported. -/
theorem C73_marked (used : Bytes → Prop) (pre : List Sym) (s : Sym) (h : ∀ x ∈ pre, x.to_.name ≠ s.to_.name) (hm : Marked s) :
    ∀ k, ¬ Said used pre s k := by
  intro k hk
  cases hk with
  | unused _ _ h3 => exact h3 hm
  | duplicate a x b h1 h2 => exact h x (by rw [h1]; simp) h2
  | different a x b h1 h2 => exact h x (by rw [h1]; simp) h2

/-! ### Cases -/

def id_ (n : Bytes) : IdentN := { name := n }
def mod_ (s : Bytes) : StringN := { value := s, token := s }
def load_ (m : Bytes) (l : List Bytes) : Expr := .load {} {} (mod_ m) (l.map id_) (l.map id_) {} false

/-- two loads, one used symbol, one unused and one loaded again -/
def exFile : File := { stmts := [load_ b!"m" [b!"b", b!"a", b!"c"], load_ b!"m" [b!"a"], .call {} (.ident (id_ b!"a")) {} [.ident (id_ b!"b")] {} false false] }

example : applyFix (fun _ _ => false) (unusedLoadWarning (sortBy loadArgLess) exFile) exFile.stmts =
    [load_ b!"m" [b!"a", b!"b"], .nil, .call {} (.ident (id_ b!"a")) {} [.ident (id_ b!"b")] {} false false] := rfl

/-- the hypotheses of the theorems hold of it -/
example : Sorts loadArgLess (sortBy loadArgLess) ∧ Needs exFile.stmts b!"a" ∧
    (∀ c p m fr t r fc, .load c p m fr t r fc ∈ exFile.stmts → id m.token = m.value) ∧
    (∀ s ∈ syms exFile.stmts, ∀ s' ∈ syms exFile.stmts, s.to_.name = s'.to_.name → Same s s') := by
  refine ⟨sortBy_sorts loadArgLess_strictWeak, ⟨_, .tail _ (.tail _ (.head _)), .inl (.inside _ (.ident (id_ b!"a")) (by intros; simp)
    (by intros; simp) (by simp [slots]) (.here _ _))⟩, ?_, ?_⟩
  · intro c p m fr t r fc h
    simp only [exFile, load_, List.mem_cons, List.not_mem_nil, or_false, reduceCtorEq] at h
    rcases h with h | h <;> (cases h; rfl)
  · intro s hs s' hs'
    simp only [exFile, load_, syms, syms1, mod_, id_, List.flatMap_cons, List.flatMap_nil, List.map_cons, List.map_nil, List.zip_cons_cons,
      List.zip_nil_left, List.append_nil, List.mem_append, List.mem_cons, List.not_mem_nil, or_false] at hs hs'
    rcases hs with (rfl | rfl | rfl) | rfl <;> rcases hs' with (rfl | rfl | rfl) | rfl <;> simp [Same]

/-- **C73 (finding).** The fix has to be run more than once: of two unused symbols with the same local name from different places only
the first is removed. -/
theorem C73_not_idempotent :
    let f : File := { stmts := [load_ b!"m" [b!"x"], load_ b!"k" [b!"x"]] }
    let f' : File := { stmts := applyFix (fun _ _ => false) (unusedLoadWarning (sortBy loadArgLess) f) f.stmts }
    f'.stmts = [.nil, load_ b!"k" [b!"x"]] ∧
    applyFix (fun _ _ => false) (unusedLoadWarning (sortBy loadArgLess) f') f'.stmts = [.nil, .nil] := ⟨rfl, rfl⟩

/-- **C73 (finding).** The marker on a second load of an unused symbol is ignored: both loads are removed. -/
theorem C73_marker_ignored :
    let marked : Expr := .load { before := [{ token := b!"# @unused" }] } {} (mod_ b!"m") [id_ b!"x"] [id_ b!"x"] {} false
    let f : File := { stmts := [load_ b!"m" [b!"x"], marked] }
    applyFix (fun _ _ => false) (unusedLoadWarning (sortBy loadArgLess) f) f.stmts = [.nil, .nil] := rfl

/-- **C73 (finding).** A symbol used in a type annotation other than a name or `T[U]` is removed: here in the union `T | None`. -/
theorem C73_union_type_removed :
    let ann : Expr := .binary {} (.ident (id_ b!"T")) {} b!"|" false (.ident (id_ b!"None"))
    let f : File := { stmts := [load_ b!"m" [b!"T"],
      .defS {} {} b!"f" [.typedIdent {} (id_ b!"x") ann] [.branch {} b!"pass" {}] {} false false .nil] }
    (applyFix (fun _ _ => false) (unusedLoadWarning (sortBy loadArgLess) f) f.stmts).head? = some .nil := rfl

/-- **C73 (finding).** The same inside `dict[str, T]`. -/
theorem C73_tuple_type_removed :
    let ann : Expr := .index {} (.ident (id_ b!"dict")) {} (.tuple {} true {} [.ident (id_ b!"str"), .ident (id_ b!"T")] {} false false) {}
    let f : File := { stmts := [load_ b!"m" [b!"T"],
      .defS {} {} b!"f" [.typedIdent {} (id_ b!"x") ann] [.branch {} b!"pass" {}] {} false false .nil] }
    (applyFix (fun _ _ => false) (unusedLoadWarning (sortBy loadArgLess) f) f.stmts).head? = some .nil := rfl

/-- **C73 (finding).** The replacement of a load hangs on its first finding: a disabling comment on the line of the first unused symbol
keeps all of them, and one on the line of another symbol keeps none. -/
theorem C73_disabled_by_first :
    let a : IdentN := { name := b!"a", namePos := { line := 2 } }
    let b : IdentN := { name := b!"b", namePos := { line := 3 } }
    let e : Expr := .load {} {} (mod_ b!"m") [a, b] [a, b] {} false
    let f : File := { stmts := [e] }
    applyFix (fun _ n => n = 2) (unusedLoadWarning (sortBy loadArgLess) f) f.stmts = [e] ∧
    applyFix (fun _ n => n = 3) (unusedLoadWarning (sortBy loadArgLess) f) f.stmts = [.nil] := ⟨rfl, rfl⟩

end Verif.Props.UnusedLoadWarn
