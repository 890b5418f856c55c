import Verif.Model.LoadCmd
import Verif.Props.LoadEdit
/-
C101: the commands new_load and replace_load of buildozer. `bindings`, `localsOf`, `WF`, `OnePerLoad` and `AnyOrder` are those of C34.
-/
namespace Verif.LoadCommand
open Verif Verif.Syntax Verif.Edit Verif.LoadCmd Verif.Props.LoadEdit

/-- the argument `to=from`, or a name alone, which means both -/
def Names (arg to_ from_ : Bytes) : Prop :=
  (arg = to_ ++ 61 :: from_ ∧ (61 : UInt8) ∉ to_) ∨ ((61 : UInt8) ∉ arg ∧ to_ = arg ∧ from_ = arg)

/-- What `new_load PATH SYMS` does to a file: every local name asked for is loaded from the path, nothing that was loaded is lost, and
nothing is added but what was asked for. -/
def Loaded (path : Bytes) (syms : List Bytes) (stmts stmts' : List Expr) : Prop :=
  (∀ arg ∈ syms, ∀ t f, Names arg t f → t ∈ localsOf path stmts') ∧
  (∀ b ∈ bindings stmts, b ∈ bindings stmts') ∧
  (∀ b ∈ bindings stmts', b ∈ bindings stmts ∨ (b.1 = path ∧ b.2.2 ∉ localsOf path stmts ∧ ∃ arg ∈ syms, Names arg b.2.2 b.2.1))

/-- What `replace_load PATH SYMS` does to a file: every local name asked for is loaded from the path and from nowhere else; all other
symbols are loaded as before. -/
def Replaced (path : Bytes) (syms : List Bytes) (stmts stmts' : List Expr) : Prop :=
  (∀ arg ∈ syms, ∀ t f, Names arg t f → t ∈ localsOf path stmts') ∧
  (∀ b ∈ bindings stmts', (∃ arg ∈ syms, ∃ f, Names arg b.2.2 f) → b.1 = path ∧ ∃ arg ∈ syms, Names arg b.2.2 b.2.1) ∧
  (∀ b, (∀ arg ∈ syms, ∀ f, ¬Names arg b.2.2 f) → (b ∈ bindings stmts' ↔ b ∈ bindings stmts))

theorem splitEq_spec : ∀ a, (∃ t f, splitEq a = some (t, f) ∧ a = t ++ 61 :: f ∧ (61 : UInt8) ∉ t) ∨ (splitEq a = none ∧ (61 : UInt8) ∉ a)
  | [] => .inr ⟨rfl, by simp⟩
  | c :: l => by
    unfold splitEq
    split
    · rename_i h; subst h; exact .inl ⟨[], l, rfl, rfl, by simp⟩
    · rename_i h
      rcases splitEq_spec l with ⟨t, f, h1, h2, h3⟩ | ⟨h1, h2⟩
      · refine .inl ⟨c :: t, f, by simp [h1], by rw [h2]; rfl, ?_⟩
        simp only [List.mem_cons, not_or]
        exact ⟨fun h' => h h'.symm, h3⟩
      · refine .inr ⟨by simp [h1], ?_⟩
        simp only [List.mem_cons, not_or]
        exact ⟨fun h' => h h'.symm, h2⟩

/-- the two names of one argument -/
def pair (a : Bytes) : Bytes × Bytes :=
  match splitEq a with
  | some p => (p.2, p.1)
  | none => (a, a)

theorem names_iff (a t f : Bytes) : Names a t f ↔ pair a = (f, t) := by
  unfold pair Names
  rcases splitEq_spec a with ⟨t', f', h1, h2, h3⟩ | ⟨h1, h2⟩
  · rw [h1]
    constructor
    · rintro (⟨h, hn⟩ | ⟨h, -⟩)
      · rw [h2] at h
        rcases List.append_eq_append_iff.mp h with ⟨m, hm1, hm2⟩ | ⟨m, hm1, hm2⟩
        · cases m with
          | nil => simp at hm1 hm2; simp [hm1, hm2]
          | cons x m => cases hm2; exact absurd (by rw [hm1]; simp) hn
        · cases m with
          | nil => simp at hm1 hm2; simp [hm1, hm2]
          | cons x m => cases hm2; exact absurd (by rw [hm1]; simp) h3
      · exact absurd (by rw [h2]; simp) h
    · intro h
      cases h
      exact .inl ⟨h2, h3⟩
  · rw [h1]
    constructor
    · rintro (⟨h, -⟩ | ⟨-, rfl, rfl⟩)
      · exact absurd (by rw [h]; simp) h2
      · rfl
    · intro h
      cases h
      exact .inr ⟨h2, rfl, rfl⟩

theorem split_eq (syms : List Bytes) : splitLoadArgs syms = (syms.map (fun a => (pair a).1), syms.map (fun a => (pair a).2)) := by
  unfold splitLoadArgs pair
  congr 1
  · apply List.map_congr_left; intro a _; cases splitEq a <;> rfl
  · apply List.map_congr_left; intro a _; cases splitEq a <;> rfl

theorem mem_to (syms : List Bytes) (t : Bytes) : t ∈ (splitLoadArgs syms).2 ↔ ∃ arg ∈ syms, ∃ f, Names arg t f := by
  rw [split_eq, List.mem_map]
  simp only [names_iff]
  constructor
  · rintro ⟨a, ha, rfl⟩; exact ⟨a, ha, (pair a).1, rfl⟩
  · rintro ⟨a, ha, f, h⟩; exact ⟨a, ha, by rw [h]⟩

theorem mem_zip (syms : List Bytes) (t f : Bytes) :
    (f, t) ∈ (splitLoadArgs syms).1.zip (splitLoadArgs syms).2 ↔ ∃ arg ∈ syms, Names arg t f := by
  rw [split_eq]
  simp only [names_iff]
  have : ∀ l : List Bytes, (l.map (fun a => (pair a).1)).zip (l.map (fun a => (pair a).2)) = l.map pair := by
    intro l
    induction l with
    | nil => rfl
    | cons a l ih => simp [ih]
  rw [this, List.mem_map]

theorem insert_some (ord1 ord2 : SymMap → SymMap) (stmts : List Expr) (path : Bytes) (syms : List Bytes) :
    ∃ r, insertLoad ord1 ord2 stmts path (splitLoadArgs syms).1 (splitLoadArgs syms).2 = some r := by
  cases h : insertLoad ord1 ord2 stmts path (splitLoadArgs syms).1 (splitLoadArgs syms).2 with
  | none => rw [C34_panic] at h; exact absurd (by rw [split_eq]; simp) h
  | some r => exact ⟨r, rfl⟩

/-- **C101 (new_load on one target).** -/
theorem C101_new_load (ord1 ord2 : SymMap → SymMap) (h1 : AnyOrder ord1) (h2 : AnyOrder ord2) (path : Bytes) (syms : List Bytes)
    (stmts : List Expr) (hwf : WF stmts) :
    ∃ stmts' args', cmdNewLoad ord1 ord2 (path :: syms) stmts = some (stmts', args') ∧ Loaded path syms stmts stmts' := by
  obtain ⟨r, hr⟩ := insert_some ord1 ord2 stmts path syms
  refine ⟨r, _, by simp only [cmdNewLoad, hr]; rfl, ?_⟩
  obtain ⟨ha, hk, ho, -⟩ := C34_available ord1 ord2 h1 h2 stmts hwf path _ _ r hr
  refine ⟨fun arg hm t f hn => ha t ((mem_to syms t).mpr ⟨arg, hm, f, hn⟩), hk, fun b hb => ?_⟩
  rcases ho b hb with h | ⟨h, hz, hn⟩
  · exact .inl h
  · exact .inr ⟨h, hn, (mem_zip syms b.2.2 b.2.1).mp hz⟩

/-- **C101 (replace_load on one target), partial.** Missing: loads of which two or more symbols are replaced at once (`C34_replace_witness`). -/
theorem C101_replace_load_partial (ord1 ord2 : SymMap → SymMap) (h1 : AnyOrder ord1) (h2 : AnyOrder ord2) (path : Bytes) (syms : List Bytes)
    (stmts : List Expr) (hone : ∀ to_, (∀ t ∈ to_, ∃ arg ∈ syms, ∃ f, Names arg t f) → OnePerLoad to_ stmts) :
    ∃ stmts' args', cmdReplaceLoad ord1 ord2 (path :: syms) stmts = some (stmts', args') ∧ Replaced path syms stmts stmts' := by
  have hsome : ∃ r, replaceLoad ord1 ord2 stmts path (splitLoadArgs syms).1 (splitLoadArgs syms).2 = some r := by
    unfold replaceLoad
    rw [if_neg (by rw [split_eq]; simp)]
    exact insert_some ord1 ord2 _ path syms
  obtain ⟨r, hr⟩ := hsome
  refine ⟨r, _, by simp only [cmdReplaceLoad, hr]; rfl, ?_⟩
  obtain ⟨ha, hb, hc⟩ := C34_replace_partial ord1 ord2 h1 h2 stmts path _ _ (hone _ (fun t ht => (mem_to syms t).mp ht)) r hr
  refine ⟨fun arg hm t f hn => ha t ((mem_to syms t).mpr ⟨arg, hm, f, hn⟩), fun b hm hn => ?_, fun b hn => ?_⟩
  · obtain ⟨h, hz⟩ := hb b hm ((mem_to syms b.2.2).mpr hn)
    exact ⟨h, (mem_zip syms b.2.2 b.2.1).mp hz⟩
  · refine hc b (fun h => ?_)
    obtain ⟨arg, hm, f, hnn⟩ := (mem_to syms b.2.2).mp h
    exact hn arg hm f hnn

theorem pair_plain {a : Bytes} (h : (61 : UInt8) ∉ a) : pair a = (a, a) := (names_iff a a a).mp (.inr ⟨h, rfl, rfl⟩)

theorem plain_from (syms : List Bytes) (h : ∀ a ∈ syms, (61 : UInt8) ∉ a) : (splitLoadArgs syms).1 = syms := by
  rw [split_eq]
  show syms.map _ = syms
  conv => rhs; rw [← List.map_id syms]
  apply List.map_congr_left
  intro a ha
  rw [pair_plain (h a ha)]
  rfl

/-- **C101 (new_load on many targets), partial.** If no argument has the form `to=from`, every target gets the loads asked for. Missing:
arguments with `=`, for which it is not so: `C101_rename_lost`. -/
theorem C101_new_load_targets_partial (ord1 ord2 : SymMap → SymMap) (h1 : AnyOrder ord1) (h2 : AnyOrder ord2) (path : Bytes) (syms : List Bytes)
    (hplain : ∀ a ∈ syms, (61 : UInt8) ∉ a) (files : List (List Expr)) (hwf : ∀ stmts ∈ files, WF stmts) :
    ∃ files', onTargets (cmdNewLoad ord1 ord2) (path :: syms) files = some files' ∧ files'.length = files.length ∧
      ∀ p ∈ files.zip files', Loaded path syms p.1 p.2 := by
  induction files with
  | nil => exact ⟨[], rfl, rfl, fun p h => by cases h⟩
  | cons f fs ih =>
    obtain ⟨fs', hf, hl, hp⟩ := ih (fun s hs => hwf s (.tail _ hs))
    obtain ⟨s', args', hc, hld⟩ := C101_new_load ord1 ord2 h1 h2 path syms f (hwf f (.head _))
    have hargs : args' = path :: syms := by
      obtain ⟨r, hr⟩ := insert_some ord1 ord2 f path syms
      simp only [cmdNewLoad, hr, Option.map_some, Option.some.injEq, Prod.mk.injEq] at hc
      rw [← hc.2, plain_from syms hplain]
    subst hargs
    refine ⟨s' :: fs', by simp only [onTargets, hc, hf, Option.map_some], by simp [hl], fun p hm => ?_⟩
    rcases List.mem_cons.mp hm with rfl | hm
    · exact hld
    · exact hp p hm

/-- **C101 (what the later targets get).** The first target is changed as asked; the others as if only the original names had been given. -/
theorem C101_later_targets (ord1 ord2 : SymMap → SymMap) (path : Bytes) (syms originals : List Bytes)
    (horig : originals.length = syms.length ∧ ∀ p ∈ syms.zip originals, ∃ t, Names p.1 t p.2) (f : List Expr) (fs : List (List Expr)) :
    ∃ f' args', cmdNewLoad ord1 ord2 (path :: syms) f = some (f', args') ∧
      onTargets (cmdNewLoad ord1 ord2) (path :: syms) (f :: fs) = (onTargets (cmdNewLoad ord1 ord2) (path :: originals) fs).map (f' :: ·) := by
  have ho : originals = (splitLoadArgs syms).1 := by
    rw [split_eq]
    obtain ⟨hl, hz⟩ := horig
    clear f fs
    induction syms generalizing originals with
    | nil => cases originals with
      | nil => rfl
      | cons => cases hl
    | cons a syms ih =>
      cases originals with
      | nil => cases hl
      | cons o originals =>
        obtain ⟨t, ht⟩ := hz (a, o) (.head _)
        have := ih originals (by simpa using hl) (fun p hp => hz p (.tail _ hp))
        simp only [List.map_cons] at this ⊢
        rw [← this, (names_iff _ _ _).mp ht]
  obtain ⟨r, hr⟩ := insert_some ord1 ord2 f path syms
  have hc : cmdNewLoad ord1 ord2 (path :: syms) f = some (r, path :: originals) := by
    simp only [cmdNewLoad, hr, ho]; rfl
  exact ⟨r, _, hc, by simp only [onTargets, hc]⟩

/-- **C101 (finding).** `new_load :m.bzl a=b` on two targets: the first gets `load(":m.bzl", a = "b")`, the second `load(":m.bzl", "b")`,
which does not define `a`. -/
theorem C101_rename_lost :
    onTargets (cmdNewLoad id id) [b!":m.bzl", b!"a=b"] [[], []] = some [
      [.load {} {} { value := b!":m.bzl" } [{ name := b!"b" }] [{ name := b!"a" }] {} true],
      [.load {} {} { value := b!":m.bzl" } [{ name := b!"b" }] [{ name := b!"b" }] {} true]] := rfl

/-- `Names` on examples -/
example : Names b!"a=b" b!"a" b!"b" ∧ Names b!"x" b!"x" b!"x" := ⟨.inl ⟨rfl, by decide⟩, .inr ⟨by decide, rfl, rfl⟩⟩

/-- a file with a load of the path and one with none, both as the parser builds them -/
example : ∃ files', onTargets (cmdNewLoad id id) [b!":m.bzl", b!"x", b!"y"]
    [[.load {} {} { value := b!":m.bzl" } [{ name := b!"x" }] [{ name := b!"x" }] {} true], []] = some files' ∧
    files' = [[.load {} {} { value := b!":m.bzl" } [{ name := b!"x" }, { name := b!"y" }] [{ name := b!"x" }, { name := b!"y" }] {} true],
      [.load {} {} { value := b!":m.bzl" } [{ name := b!"x" }, { name := b!"y" }] [{ name := b!"x" }, { name := b!"y" }] {} true]] := ⟨_, rfl, rfl⟩

end Verif.LoadCommand
