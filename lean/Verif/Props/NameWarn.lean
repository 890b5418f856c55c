import Verif.Model.NameWarn
import Verif.Props.Uninit
import Verif.Props.Bzlenv
import Verif.Props.Flow
import Verif.Props.Walk
/-
**C85** Visibility of .bzl files, and names: which loads of private modules, confusing names and unconventional names are reported.
-/
namespace Verif.Props.NameWarn
open Verif Verif.Syntax Verif.Walk Verif.NameWarn Verif.Props.Walk

/-! ## Specification -/

/-- `s` is `a`, then the first occurrence of `p`, then `r` -/
def FirstAt (p s a r : Bytes) : Prop := s = a ++ (p ++ r) ∧ ∀ a' r', s = a' ++ (p ++ r') → a.length ≤ a'.length

/-- how a private directory ends a prefix of a label -/
def Private (m : Bytes) : Prop := m = b!"/internal/" ∨ m = b!"/internal:" ∨ m = b!"/private/" ∨ m = b!"/private:"

/-- `d`: what is before the first private directory of the label -/
def Parent (label d : Bytes) : Prop :=
  ∃ m r, Private m ∧ label = d ++ (m ++ r) ∧ ∀ m' d' r', Private m' → label = d' ++ (m' ++ r') → d.length ≤ d'.length

/-- the label without its repository -/
def Local (module label : Bytes) : Prop :=
  (∃ m, module = c!"@" :: m ∧ ∃ a r, FirstAt b!"//" module a r ∧ label = b!"//" ++ r) ∨
  (label = module ∧ ¬ ∃ m, module = c!"@" :: m ∧ ∃ a r, FirstAt b!"//" module a r)

/-- the path with the first `/javatests/` replaced by `/java/`, if there is one -/
def AsJava (path q : Bytes) : Prop := ∃ a r, FirstAt b!"/javatests/" path a r ∧ q = a ++ (b!"/java/" ++ r)

/-- the module cannot be loaded from the file -/
def Forbidden (path module : Bytes) : Prop :=
  ∃ label d, Local module label ∧ Parent label d ∧ ¬ d <+: path ∧ ∀ q, AsJava path q → ¬ d <+: q

/-- the modules of the loads of a file, in order -/
def modulesOf : List Expr → List Bytes
  | .load _ _ m _ _ _ _ :: l => m.value :: modulesOf l
  | _ :: l => modulesOf l
  | [] => []

/-- a name that looks like another one -/
def Confusing (n : Bytes) : Prop := n = b!"I" ∨ n = b!"l" ∨ n = b!"O"

/-- the node introduces a name: a function, its parameters and local variables, the variables of a comprehension -/
inductive Introduces : Expr → Bytes → Prop
  | function (c p n ps b cp fc fm t) : Introduces (.defS c p n ps b cp fc fm t) n
  | param (c p n ps b cp fc fm t x m) : x ∈ ps → Bzlenv.ParamNamed x m → Introduces (.defS c p n ps b cp fc fm t) m
  | local_ (c p n ps b cp fc fm t s m) : s ∈ b → Uninit.Assigns s m → Introduces (.defS c p n ps b cp fc fm t) m
  | compr (c cu lb b cl fm e c' f v i x m) : Expr.forClause c' f v i x ∈ cl → Bzlenv.LVal v m → Introduces (.compr c cu lb b cl fm e) m

/-- a byte A–Z -/
def Capital (c : UInt8) : Prop := 65 ≤ c.toNat ∧ c.toNat ≤ 90
/-- a byte a–z -/
def Small (c : UInt8) : Prop := 97 ≤ c.toNat ∧ c.toNat ≤ 122

/-- a name such as `FooInfo` or `_FooInfo`: no other underscores -/
def ProviderName (n : Bytes) : Prop :=
  ∃ m, (n = m ∨ n = c!"_" :: m) ∧ c!"_" ∉ m ∧ (∀ c l, m = c :: l → ¬ Small c) ∧ b!"Info" <:+ n

/-- the name of a variable, a constant or a provider -/
def Conventional (n : Bytes) : Prop := (∀ c ∈ n, ¬ Capital c) ∨ (∀ c ∈ n, ¬ Small c) ∨ ProviderName n

/-! ## Proofs -/

theorem prefix_iff (p s : Bytes) : p.isPrefixOf s = true ↔ ∃ r, s = p ++ r := by
  rw [List.isPrefixOf_iff_prefix]
  exact ⟨fun ⟨r, h⟩ => ⟨r, h.symm⟩, fun ⟨r, h⟩ => ⟨r, h.symm⟩⟩

theorem after_some {p : Bytes} : ∀ {s r : Bytes}, after p s = some r → ∃ a, FirstAt p s a r
  | [], r, h => by cases h
  | c :: l, r, h => by
    unfold after at h
    by_cases hp : p.isPrefixOf (c :: l) = true
    · rw [if_pos hp] at h
      obtain ⟨r', hr'⟩ := (prefix_iff _ _).1 hp
      injection h with h
      refine ⟨[], ?_, fun _ _ _ => by simp⟩
      rw [← h, hr']; simp
    · rw [if_neg hp] at h
      obtain ⟨a, h1, h2⟩ := after_some h
      refine ⟨c :: a, by rw [h1]; rfl, fun a' r' h' => ?_⟩
      cases a' with
      | nil => exact absurd ((prefix_iff _ _).2 ⟨r', h'⟩) hp
      | cons x a' =>
        injection h' with _ h'
        have := h2 a' r' h'
        simp only [List.length_cons]; omega

theorem after_none {p : Bytes} (hp : p ≠ []) : ∀ {s : Bytes}, after p s = none → ∀ a r, s ≠ a ++ (p ++ r)
  | [], _, a, r, h => by
    have := congrArg List.length h
    simp at this
    exact hp (List.eq_nil_of_length_eq_zero (by omega))
  | c :: l, hn, a, r, h => by
    unfold after at hn
    by_cases hh : p.isPrefixOf (c :: l) = true
    · rw [if_pos hh] at hn; cases hn
    · rw [if_neg hh] at hn
      cases a with
      | nil => exact hh ((prefix_iff _ _).2 ⟨r, h⟩)
      | cons x a =>
        injection h with _ h
        exact after_none hp hn a r h

theorem firstAt_unique {p s a r a' r' : Bytes} (h : FirstAt p s a r) (h' : FirstAt p s a' r') : a = a' ∧ r = r' := by
  have hl : a.length = a'.length := Nat.le_antisymm (h.2 _ _ h'.1) (h'.2 _ _ h.1)
  have := h.1.symm.trans h'.1
  obtain ⟨h1, h2⟩ := List.append_inj this hl
  exact ⟨h1, List.append_cancel_left h2⟩

theorem at_iff (module : Bytes) : hasPrefix module b!"@" = true ↔ ∃ m, module = c!"@" :: m := prefix_iff _ _

theorem dropRepo_local (module : Bytes) : Local module (dropRepo module) := by
  unfold dropRepo
  by_cases h : hasPrefix module b!"@" = true
  · rw [if_pos h]
    obtain ⟨m, hm⟩ := (at_iff _).1 h
    cases ha : after b!"//" module with
    | some r =>
      obtain ⟨a, h1⟩ := after_some ha
      exact .inl ⟨m, hm, a, r, h1, rfl⟩
    | none =>
      exact .inr ⟨rfl, fun ⟨_, _, a, r, h'⟩ => after_none (by decide) ha a r h'.1⟩
  · rw [if_neg h]
    exact .inr ⟨rfl, fun ⟨m, hm, _⟩ => h ((at_iff _).2 ⟨m, hm⟩)⟩

theorem local_unique {module x y : Bytes} (h : Local module x) (h' : Local module y) : x = y := by
  rcases h with ⟨m, hm, a, r, h1, rfl⟩ | ⟨rfl, hn⟩
  · rcases h' with ⟨_, _, a', r', h2, rfl⟩ | ⟨_, hn⟩
    · rw [(firstAt_unique h1 h2).2]
    · exact absurd ⟨m, hm, a, r, h1⟩ hn
  · rcases h' with ⟨m, hm, a', r', h2, rfl⟩ | ⟨rfl, _⟩
    · exact absurd ⟨m, hm, a', r', h2⟩ hn
    · rfl

theorem matches_iff (s : Bytes) : matchesHere s = true ↔ ∃ m r, Private m ∧ s = m ++ r := by
  unfold matchesHere
  simp only [Bool.or_eq_true, prefix_iff]
  constructor
  · rintro (((⟨r, h⟩ | ⟨r, h⟩) | ⟨r, h⟩) | ⟨r, h⟩)
    · exact ⟨_, r, .inl rfl, h⟩
    · exact ⟨_, r, .inr (.inl rfl), h⟩
    · exact ⟨_, r, .inr (.inr (.inl rfl)), h⟩
    · exact ⟨_, r, .inr (.inr (.inr rfl)), h⟩
  · rintro ⟨m, r, rfl | rfl | rfl | rfl, h⟩
    · exact .inl (.inl (.inl ⟨r, h⟩))
    · exact .inl (.inl (.inr ⟨r, h⟩))
    · exact .inl (.inr ⟨r, h⟩)
    · exact .inr ⟨r, h⟩

theorem before_some : ∀ {s d : Bytes}, beforeInternal s = some d → Parent s d
  | [], _, h => by cases h
  | c :: l, d, h => by
    unfold beforeInternal at h
    by_cases hm : matchesHere (c :: l) = true
    · rw [if_pos hm] at h
      injection h with h
      obtain ⟨m, r, h1, h2⟩ := (matches_iff _).1 hm
      subst h
      exact ⟨m, r, h1, h2, fun _ _ _ _ _ => by simp⟩
    · rw [if_neg hm] at h
      cases hb : beforeInternal l with
      | none => rw [hb] at h; cases h
      | some d' =>
        rw [hb] at h
        injection h with h
        subst h
        obtain ⟨m, r, h1, h2, h3⟩ := before_some hb
        refine ⟨m, r, h1, by rw [h2]; rfl, fun m' d' r' hm' h' => ?_⟩
        cases d' with
        | nil => exact absurd ((matches_iff _).2 ⟨m', r', hm', h'⟩) hm
        | cons x d' =>
          injection h' with _ h'
          have := h3 m' d' r' hm' h'
          simp only [List.length_cons]; omega

theorem before_none : ∀ {s : Bytes}, beforeInternal s = none → ∀ d, ¬ Parent s d
  | [], _, d, ⟨m, r, hm, h, _⟩ => by
    have := congrArg List.length h
    rcases hm with rfl | rfl | rfl | rfl <;> simp at this <;> omega
  | c :: l, hn, d, ⟨m, r, hm, h, _⟩ => by
    unfold beforeInternal at hn
    by_cases hh : matchesHere (c :: l) = true
    · rw [if_pos hh] at hn; cases hn
    · rw [if_neg hh] at hn
      cases hb : beforeInternal l with
      | some d' => rw [hb] at hn; cases hn
      | none =>
        cases d with
        | nil => exact hh ((matches_iff _).2 ⟨m, r, hm, h⟩)
        | cons x d =>
          injection h with _ h
          -- a first occurrence exists in `l` if any does
          have : ∀ (k : Nat) (d : Bytes), d.length ≤ k → ∀ m r, Private m → l = d ++ (m ++ r) → ∃ d', Parent l d' := by
            intro k
            induction k with
            | zero =>
              intro d hd m r hm h
              have : d = [] := List.eq_nil_of_length_eq_zero (by omega)
              subst this
              exact ⟨[], m, r, hm, h, fun _ _ _ _ _ => by simp⟩
            | succ k ih =>
              intro d hd m r hm h
              by_cases hmin : ∀ m' d' r', Private m' → l = d' ++ (m' ++ r') → d.length ≤ d'.length
              · exact ⟨d, m, r, hm, h, hmin⟩
              · simp only [Classical.not_forall] at hmin
                obtain ⟨m', d', r', hm', h', hlt⟩ := hmin
                exact ih d' (by omega) m' r' hm' h'
          obtain ⟨d', hd'⟩ := this d.length d (Nat.le_refl _) m r hm h
          exact before_none hb d' hd'

theorem parent_unique {s d d' : Bytes} (h : Parent s d) (h' : Parent s d') : d = d' := by
  obtain ⟨m, r, hm, h1, h2⟩ := h
  obtain ⟨m', r', hm', h1', h2'⟩ := h'
  have hl : d.length = d'.length := Nat.le_antisymm (h2 _ _ _ hm' h1') (h2' _ _ _ hm h1)
  exact (List.append_inj (h1.symm.trans h1') hl).1

theorem replace_some {old new : Bytes} : ∀ {s a r : Bytes}, old ≠ [] → FirstAt old s a r → replaceFirst old new s = a ++ (new ++ r)
  | [], a, r, ho, h => by
    have := congrArg List.length h.1
    simp at this
    exact absurd (List.eq_nil_of_length_eq_zero (by omega)) ho
  | c :: l, a, r, ho, h => by
    unfold replaceFirst
    by_cases hp : old.isPrefixOf (c :: l) = true
    · rw [if_pos hp]
      obtain ⟨r', hr'⟩ := (prefix_iff _ _).1 hp
      have hz := h.2 [] r' hr'
      have ha : a = [] := List.eq_nil_of_length_eq_zero (Nat.le_zero.1 hz)
      subst ha
      rw [show c :: l = old ++ r from h.1]; simp
    · rw [if_neg hp]
      cases a with
      | nil => exact absurd ((prefix_iff _ _).2 ⟨r, h.1⟩) hp
      | cons x a =>
        obtain ⟨h1, h2⟩ := h
        injection h1 with hx h1
        subst hx
        rw [replace_some ho ⟨h1, fun a' r' h' => by
          have := h2 (c :: a') r' (by rw [h']; rfl)
          simp only [List.length_cons] at this; omega⟩]
        rfl

theorem replace_none {old new : Bytes} : ∀ {s : Bytes}, (∀ a r, s ≠ a ++ (old ++ r)) → replaceFirst old new s = s
  | [], _ => rfl
  | c :: l, h => by
    unfold replaceFirst
    rw [if_neg fun hp => (by obtain ⟨r, hr⟩ := (prefix_iff _ _).1 hp; exact h [] r hr), replace_none fun a r h' => h (c :: a) r (by rw [h']; rfl)]

theorem hidden_iff (path module : Bytes) : hidden path module = true ↔ Forbidden path module := by
  have java : ∀ d : Bytes, (d <+: path ∨ d <+: replaceFirst b!"/javatests/" b!"/java/" path) ↔ (d <+: path ∨ ∃ q, AsJava path q ∧ d <+: q) := by
    intro d
    cases ha : after b!"/javatests/" path with
    | some r =>
      obtain ⟨a, h⟩ := after_some ha
      rw [replace_some (by decide) h]
      constructor
      · rintro (h1 | h1)
        · exact .inl h1
        · exact .inr ⟨_, ⟨a, r, h, rfl⟩, h1⟩
      · rintro (h1 | ⟨q, ⟨a', r', h', rfl⟩, h1⟩)
        · exact .inl h1
        · obtain ⟨rfl, rfl⟩ := firstAt_unique h h'; exact .inr h1
    | none =>
      rw [replace_none (after_none (by decide) ha)]
      constructor
      · rintro (h1 | h1) <;> exact .inl h1
      · rintro (h1 | ⟨q, ⟨a', r', h', rfl⟩, h1⟩)
        · exact .inl h1
        · exact absurd h'.1 (after_none (by decide) ha a' r')
  have hl := dropRepo_local module
  unfold hidden
  cases hb : beforeInternal (dropRepo module) with
  | none =>
    refine ⟨fun h => by simp at h, ?_⟩
    rintro ⟨label, d, h1, h2, _⟩
    rw [local_unique h1 hl] at h2
    exact absurd h2 (before_none hb d)
  | some d =>
    have hp := before_some hb
    simp only [Bool.not_eq_true', Bool.or_eq_false_iff, hasPrefix]
    constructor
    · rintro ⟨h1, h2⟩
      have hn : ¬ (d <+: path ∨ d <+: replaceFirst b!"/javatests/" b!"/java/" path) := by
        rintro (h | h)
        · rw [List.isPrefixOf_iff_prefix.2 h] at h1; cases h1
        · rw [List.isPrefixOf_iff_prefix.2 h] at h2; cases h2
      rw [java] at hn
      exact ⟨_, d, hl, hp, fun h => hn (.inl h), fun q hq h => hn (.inr ⟨q, hq, h⟩)⟩
    · rintro ⟨label, d', h1, h2, h3, h4⟩
      rw [local_unique h1 hl] at h2
      obtain rfl := parent_unique hp h2
      have hn : ¬ (d <+: path ∨ d <+: replaceFirst b!"/javatests/" b!"/java/" path) := by
        rw [java]
        rintro (h | ⟨q, hq, h⟩)
        · exact h3 h
        · exact h4 q hq h
      constructor
      · exact Bool.eq_false_iff.2 fun h => hn (.inl (List.isPrefixOf_iff_prefix.1 h))
      · exact Bool.eq_false_iff.2 fun h => hn (.inr (List.isPrefixOf_iff_prefix.1 h))

/-- **C85**: if the file is known to be in a workspace, exactly the loads are reported, in order, of modules it must not load: those in a directory
`internal` or `private` whose parent directory (textually) begins neither the path of the file nor that path with `/javatests/` read as `/java/`. -/
theorem C85_visibility (root path : Bytes) (stmts : List Expr) :
    ∃ test : Bytes → Bool, (∀ m, test m = true ↔ Forbidden path m) ∧
      bzlVisibility root path stmts = if root = [] then [] else (modulesOf stmts).filter test := by
  refine ⟨hidden path, hidden_iff path, ?_⟩
  unfold bzlVisibility
  by_cases hr : root = []
  · rw [if_pos hr, if_pos hr]
  · rw [if_neg hr, if_neg hr]
    induction stmts with
    | nil => rfl
    | cons e l ih =>
      rw [List.flatMap_cons, ih]
      cases e <;> simp only [modulesOf, List.nil_append]
      rw [List.filter_cons]
      split <;> rfl

/-- **C85**: a file may load every module below its own directory's ancestors: if the directory that contains the private one is a prefix of the path, the
load is not reported. -/
theorem C85_visible_inside (root path module d : Bytes) (stmts : List Expr) (hd : Parent module d) (hm : ∀ x, module ≠ c!"@" :: x) (hp : d <+: path) :
    module ∉ bzlVisibility root path stmts := by
  obtain ⟨test, h1, h2⟩ := C85_visibility root path stmts
  rw [h2]
  split
  · simp
  · rw [List.mem_filter]
    rintro ⟨_, ht⟩
    obtain ⟨label, d', h3, h4, h5, _⟩ := (h1 _).1 ht
    rcases h3 with ⟨x, hx, _⟩ | ⟨rfl, _⟩
    · exact hm x hx
    · exact h5 (parent_unique hd h4 ▸ hp)

/-- a load of the module -/
def loadOf (m : Bytes) : Expr := .load {} {} { value := m } [] [] {} false

/-- a private file of another package is reported, one of the same package or of a repository is not; the comparison is textual, so files of `//foobar` may
load private files of `//foo`, and `//internal` itself is visible everywhere -/
theorem C85_visibility_examples :
    bzlVisibility b!"/r" b!"//bar/x:BUILD" [loadOf b!"//foo/private:a.bzl", loadOf b!"//bar/internal/z:a.bzl"] = [b!"//foo/private:a.bzl"] ∧
    bzlVisibility b!"/r" b!"//foo:BUILD" [loadOf b!"//foo/private:a.bzl", loadOf b!"@r//foo/private:a.bzl"] = [] ∧
    bzlVisibility b!"/r" b!"//foobar:BUILD" [loadOf b!"//foo/private:a.bzl"] = [] ∧
    bzlVisibility b!"/r" b!"//bar:BUILD" [loadOf b!"//internal:a.bzl"] = [] ∧
    bzlVisibility b!"/r" b!"//javatests/com/x:BUILD" [loadOf b!"//java/com/x/private:a.bzl"] = [] ∧
    bzlVisibility [] b!"//bar:BUILD" [loadOf b!"//foo/private:a.bzl"] = [] := by decide +kernel

/-! ### names -/

theorem ambiguous_iff (n : Bytes) : ambiguous n = true ↔ Confusing n := by
  unfold ambiguous Confusing
  simp only [Bool.or_eq_true, decide_eq_true_eq, or_assoc]

theorem introduced_iff (x : Expr) (n : Bytes) (hn : n ≠ []) : n ∈ introduced x ↔ Introduces x n := by
  cases x with
  | defS c p m ps b cp fc fm t =>
    rw [introduced, List.mem_cons, List.mem_append, Uninit.localsL_iff, List.mem_map]
    constructor
    · rintro (rfl | ⟨x, hx, h⟩ | ⟨s, hs, h⟩)
      · exact .function ..
      · rcases (Bzlenv.paramName_iff x n).1 h.symm with h | ⟨h, _⟩
        · exact .param _ _ _ _ _ _ _ _ _ x n hx h
        · exact absurd h hn
      · exact .local_ _ _ _ _ _ _ _ _ _ s n hs h
    · intro h
      cases h with
      | function => exact .inl rfl
      | param _ _ _ _ _ _ _ _ _ x _ hx h => exact .inr (.inl ⟨x, hx, ((Bzlenv.paramName_iff x n).2 (.inl h)).symm⟩)
      | local_ _ _ _ _ _ _ _ _ _ s _ hs h => exact .inr (.inr ⟨s, hs, h⟩)
  | compr c cu lb b cl fm e =>
    rw [introduced, List.mem_flatMap]
    constructor
    · rintro ⟨y, hy, h⟩
      cases y with
      | forClause c' f v i x => exact .compr _ _ _ _ _ _ _ c' f v i x n hy ((Bzlenv.lvalues_mem v n).1 h)
      | _ => simp [clauseNames] at h
    · intro h
      cases h with
      | compr _ _ _ _ _ _ _ c' f v i x _ hy h => exact ⟨_, hy, (Bzlenv.lvalues_mem v n).2 h⟩
  | _ => exact ⟨fun h => (by simp [introduced] at h), fun h => (by cases h)⟩

theorem foldl_collect (g : Expr → List Bytes) : ∀ (l : List (List Expr × Expr)) (log : List Bytes),
    l.foldl (fun log q => log ++ g q.2) log = log ++ l.flatMap fun q => g q.2
  | [], log => by simp
  | q :: l, log => by rw [List.foldl_cons, foldl_collect g l]; simp

/-- **C85**: the names reported as confusing are `I`, `l` and `O`, where they are assigned at the top level (in or outside of blocks), or are the name, a parameter
or a local variable of a function, or a variable of a comprehension, anywhere in the file. -/
theorem C85_confusing (c : Comments) (stmts : List Expr) (n : Bytes) : n ∈ confusing c stmts ↔
    Confusing n ∧ ((∃ s ∈ stmts, Uninit.Assigns s n) ∨ ∃ q ∈ occ [] (.file c stmts), Introduces q.2 n) := by
  have key : walk (fun (log : List Bytes) x _ => log ++ (introduced x).filter ambiguous) [] (.file c stmts) =
      (occ [] (.file c stmts)).flatMap fun q => (introduced q.2).filter ambiguous := by
    rw [C26_walk_visits_every_node_once, foldl_collect (fun x => (introduced x).filter ambiguous)]; rfl
  have hne : Confusing n → n ≠ [] := by rintro (rfl | rfl | rfl) <;> simp
  unfold confusing
  rw [key, List.mem_append, List.mem_filter, Uninit.localsL_iff, ambiguous_iff, List.mem_flatMap]
  constructor
  · rintro (⟨h1, h2⟩ | ⟨q, hq, h⟩)
    · exact ⟨h2, .inl h1⟩
    · rw [List.mem_filter, ambiguous_iff] at h
      exact ⟨h.2, .inr ⟨q, hq, (introduced_iff _ _ (hne h.2)).1 h.1⟩⟩
  · rintro ⟨h, h' | ⟨q, hq, h'⟩⟩
    · exact .inl ⟨h', h⟩
    · exact .inr ⟨q, hq, List.mem_filter.2 ⟨(introduced_iff _ _ (hne h)).2 h', (ambiguous_iff _).2 h⟩⟩

/-- an identifier -/
def idn (n : Bytes) : Expr := .ident { name := n }
/-- an assignment -/
def set (l r : Expr) : Expr := .assign {} l {} b!"=" false r

/-- `def f(l): O = 1` has two confusing names; the parameters of `lambda l: l` are not looked at -/
theorem C85_confusing_examples :
    confusing {} [.defS {} {} b!"f" [idn b!"l"] [set (idn b!"O") (.literal {} {} b!"1")] {} false false .nil] = [b!"l", b!"O"] ∧
    confusing {} [set (idn b!"x") (.lambda {} {} [idn b!"l"] [idn b!"l"])] = [] := by
  constructor <;> rfl

theorem lowerByte_same (c : UInt8) : lowerByte c = c ↔ ¬ Capital c := by
  unfold lowerByte Capital
  by_cases h : (65 ≤ c && c ≤ 90) = true
  · rw [if_pos h]
    simp only [Bool.and_eq_true, decide_eq_true_eq, UInt8.le_iff_toNat_le] at h
    have h1 : 65 ≤ c.toNat := h.1
    have h2 : c.toNat ≤ 90 := h.2
    constructor
    · intro he
      have := congrArg UInt8.toNat he
      rw [UInt8.toNat_add] at this
      simp at this; omega
    · intro hn; exact absurd ⟨h1, h2⟩ hn
  · rw [if_neg h]
    refine ⟨fun _ hc => h ?_, fun _ => rfl⟩
    simp only [Bool.and_eq_true, decide_eq_true_eq, UInt8.le_iff_toNat_le]
    exact hc

theorem upperByte_same (c : UInt8) : upperByte c = c ↔ ¬ Small c := by
  unfold upperByte Small
  by_cases h : (97 ≤ c && c ≤ 122) = true
  · rw [if_pos h]
    simp only [Bool.and_eq_true, decide_eq_true_eq, UInt8.le_iff_toNat_le] at h
    have h1 : 97 ≤ c.toNat := h.1
    have h2 : c.toNat ≤ 122 := h.2
    constructor
    · intro he
      have := congrArg UInt8.toNat he
      rw [UInt8.toNat_sub_of_le _ _ (by rw [UInt8.le_iff_toNat_le]; exact Nat.le_trans (by decide) h1)] at this
      simp at this; omega
    · intro hn; exact absurd ⟨h1, h2⟩ hn
  · rw [if_neg h]
    refine ⟨fun _ hc => h ?_, fun _ => rfl⟩
    simp only [Bool.and_eq_true, decide_eq_true_eq, UInt8.le_iff_toNat_le]
    exact hc

theorem map_same (g : UInt8 → UInt8) : ∀ l : Bytes, l = l.map g ↔ ∀ c ∈ l, g c = c
  | [] => by simp
  | c :: l => by
    rw [List.map_cons]
    constructor
    · intro h
      injection h with h1 h2
      intro x hx
      rcases List.mem_cons.1 hx with rfl | hx
      · exact h1.symm
      · exact (map_same g l).1 h2 x hx
    · intro h
      rw [h c (by simp), ← (map_same g l).2 fun x hx => h x (by simp [hx])]

theorem camel_iff (n : Bytes) : isUpperCamelCase n = true ↔ ∃ m, (n = m ∨ n = c!"_" :: m) ∧ c!"_" ∉ m ∧ (∀ c l, m = c :: l → ¬ Small c) := by
  have core : ∀ m : Bytes, (!m.contains c!"_" && decide (m = title m)) = true ↔ c!"_" ∉ m ∧ (∀ c l, m = c :: l → ¬ Small c) := by
    intro m
    rw [Bool.and_eq_true, decide_eq_true_eq, Bool.not_eq_true', ← Bool.not_eq_true, List.contains_iff_mem]
    refine and_congr Iff.rfl ?_
    cases m with
    | nil => exact ⟨fun _ c l h => (by cases h), fun _ => rfl⟩
    | cons c l =>
      rw [title]
      constructor
      · intro h c' l' h'
        injection h' with h1 h2
        injection h with h3 h4
        exact h1 ▸ (upperByte_same c).1 h3.symm
      · intro h
        rw [(upperByte_same c).2 (h c l rfl)]
  unfold isUpperCamelCase
  simp only []
  rw [core]
  unfold trimPrefix
  by_cases hp : (b!"_").isPrefixOf n = true
  · rw [if_pos hp]
    obtain ⟨r, rfl⟩ := (prefix_iff _ _).1 hp
    constructor
    · intro h; exact ⟨r, .inr rfl, h⟩
    · rintro ⟨m, h1 | h1, h2⟩
      · exact absurd (h1 ▸ List.mem_cons_self) h2.1
      · have : r = m := by injection h1
        exact this ▸ h2
  · rw [if_neg hp]
    constructor
    · intro h; exact ⟨n, .inl rfl, h⟩
    · rintro ⟨m, h1 | h1, h2⟩
      · exact h1 ▸ h2
      · exact absurd ((prefix_iff _ _).2 ⟨m, h1⟩) hp

theorem unconventional_iff (n : Bytes) : unconventional n = true ↔ ¬ Conventional n := by
  have h1 : isLowerSnakeCase n = true ↔ ∀ c ∈ n, ¬ Capital c := by
    unfold isLowerSnakeCase toLower
    rw [decide_eq_true_eq, map_same]
    exact forall_congr' fun c => imp_congr Iff.rfl (lowerByte_same c)
  have h2 : isUpperSnakeCase n = true ↔ ∀ c ∈ n, ¬ Small c := by
    unfold isUpperSnakeCase
    rw [decide_eq_true_eq, map_same]
    exact forall_congr' fun c => imp_congr Iff.rfl (upperByte_same c)
  have h3 : (isUpperCamelCase n && hasSuffix n b!"Info") = true ↔ ProviderName n := by
    rw [Bool.and_eq_true, camel_iff, hasSuffix, List.isSuffixOf_iff_suffix]
    constructor
    · rintro ⟨⟨m, a, b, c⟩, d⟩; exact ⟨m, a, b, c, d⟩
    · rintro ⟨m, a, b, c, d⟩; exact ⟨⟨m, a, b, c⟩, d⟩
  unfold unconventional Conventional
  rw [Bool.and_eq_true, Bool.not_eq_true', Bool.not_eq_true', Bool.or_eq_false_iff, ← h1, ← h2, ← h3]
  cases isLowerSnakeCase n <;> cases isUpperSnakeCase n <;> cases (isUpperCamelCase n && hasSuffix n b!"Info") <;> simp

/-- **C85**: the names reported as unconventional are those a statement of the file (at any depth) assigns that contain both capital and small letters and are
not like `FooInfo`. -/
theorem C85_conventions (f : Expr) (n : Bytes) : n ∈ conventions f ↔
    ¬ Conventional n ∧ ∃ d c l p op lb r, Flow.NodeAt f d (.assign c l p op lb r) ∧ Bzlenv.LVal l n := by
  unfold conventions
  rw [List.mem_flatMap]
  constructor
  · rintro ⟨⟨d, st, x⟩, hq, h⟩
    cases x with
    | assign c l p op lb r =>
      rw [badNames, List.mem_filter, Bzlenv.lvalues_mem, unconventional_iff] at h
      exact ⟨h.2, d, c, l, p, op, lb, r, (Flow.walkSt_node (by exact nofun) d.length d (Nat.le_refl _) [] f).1 ⟨st, hq⟩, h.1⟩
    | _ => simp [badNames] at h
  · rintro ⟨h, d, c, l, p, op, lb, r, hn, hl⟩
    obtain ⟨st, hst⟩ := (Flow.walkSt_node (by exact nofun) d.length d (Nat.le_refl _) [] f).2 hn
    exact ⟨_, hst, List.mem_filter.2 ⟨(Bzlenv.lvalues_mem _ _).2 hl, (unconventional_iff n).2 h⟩⟩

/-- `foo`, `FOO_1`, `FooInfo`, `_FooInfo` and `1`-like names are conventional; `fooBar`, `Foo`, `Foo_Info` and `fooInfo` are not -/
theorem C85_conventions_examples :
    conventions (.file {} [set (.tuple {} false {} [idn b!"foo", idn b!"FOO_1", idn b!"FooInfo", idn b!"_FooInfo", idn b!"fooBar", idn b!"Foo", idn b!"Foo_Info",
      idn b!"fooInfo"] {} false false) (.literal {} {} b!"1")]) = [b!"fooBar", b!"Foo", b!"Foo_Info", b!"fooInfo"] := by rfl

end Verif.Props.NameWarn
