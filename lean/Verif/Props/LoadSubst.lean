import Verif.Model.LoadSubst
import Verif.Props.LoadEdit
import Verif.Props.CommandLists
import Verif.Props.Quote
/-
C102: the command substitute_load of buildozer. `Substituted` is that of C64, `bindings` that of C34, `GoodLiteral` that of C03.
-/
namespace Verif.LoadSubstitute
open Verif Verif.Syntax Verif.Cmd Verif.LoadCmd Verif.Props.LoadEdit Verif.Props.Commands Verif.Walk

/-- `new` is the path `old` is replaced with -/
def NewPath (re : Regexp) (old new : Bytes) : Prop := Substituted re old new ∨ re.find old = none ∧ new = old

/-- What `substitute_load` makes of a statement: a load gets the new path, and whatever the printer writes for it is a literal that reads as
the new path; everything else of the load is kept, and so is every other statement. -/
inductive Stmt (re : Regexp) : Expr → Expr → Prop
  | load (c p m m' f t r fc) : NewPath re m.value m'.value → (re.find m.value = none → m' = m) →
      m'.comments = m.comments → m'.triple = m.triple →
      ((m.token = [] ∨ Props.Quote.LexedToken m.token) → ∀ out, Quote.printString m'.token m'.value m'.triple = some out →
        Props.Quote.GoodLiteral out m'.value m.triple) →
      Stmt re (.load c p m f t r fc) (.load c p m' f t r fc)
  | other (x) : (∀ c p m f t r fc, x ≠ .load c p m f t r fc) → Stmt re x x

theorem newPath_of (re : Regexp) (hre : re.Proper) (s : Bytes) : ∃ new, NewPath re s new ∧ (substitute re s).getD s = new ∧
    (substitute re s = none ↔ re.find s = none) := by
  by_cases h : re.find s = none
  · have h2 := (substitute_spec re hre s).1 h
    exact ⟨s, .inr ⟨h, rfl⟩, by rw [h2]; rfl, by simp [h, h2]⟩
  · obtain ⟨r, h2, h3⟩ := (substitute_spec re hre s).2 h
    exact ⟨r, .inl h3, by rw [h2]; rfl, by simp [h, h2]⟩

theorem newPath_unique {re : Regexp} {s a b : Bytes} (ha : NewPath re s a) (hb : NewPath re s b) : a = b := by
  rcases ha with ⟨p, m, q, h1, h2, h3⟩ | ⟨h1, h2⟩ <;> rcases hb with ⟨p', m', q', h1', h2', h3'⟩ | ⟨h1', h2'⟩
  · rw [h2] at h2'
    simp only [Option.some.injEq, Prod.mk.injEq] at h2'
    obtain ⟨e1, e2⟩ := h2'
    have e : (p ++ m) ++ q = (p' ++ m') ++ q' := by rw [← h1, ← h1']
    obtain ⟨e3, e4⟩ := List.append_inj e e2
    obtain ⟨e5, _⟩ := List.append_inj e3 e1
    rw [h3, h3', e4, e5]
  · rw [h2] at h1'; cases h1'
  · rw [h2'] at h1; cases h1
  · rw [h2, h2']

theorem stmt_ok (re : Regexp) (hre : re.Proper) (x : Expr) : Stmt re x (substituteLoad1 re x) := by
  unfold substituteLoad1
  split
  · rename_i c p m f t r fc
    obtain ⟨new, h1, h2, h3⟩ := newPath_of re hre m.value
    split
    · rename_i v hv
      rw [hv] at h2 h3
      simp only [Option.getD_some] at h2
      subst h2
      exact .load c p m _ f t r fc h1 (fun h => by cases h3.2 h) rfl rfl fun ht out ho => Props.Quote.C03_print_string _ _ _ _ ht ho
    · rename_i hv
      rw [hv] at h2 h3
      simp only [Option.getD_none] at h2
      subst h2
      exact .load c p m m f t r fc h1 (fun _ => rfl) rfl rfl fun ht out ho => Props.Quote.C03_print_string _ _ _ _ ht ho
  · rename_i h
    exact .other _ fun c p m f t r fc he => h c p m f t r fc he

/-- **C102.** `substitute_load REGEXP TEMPLATE` replaces the paths of the loads that match and changes nothing else of the file. -/
theorem C102_substitute_load (re : Regexp) (hre : re.Proper) (stmts : List Expr) :
    ∃ stmts', cmdSubstituteLoad (some re) stmts = some stmts' ∧ Forall2 (Stmt re) stmts stmts' := by
  refine ⟨_, rfl, ?_⟩
  induction stmts with
  | nil => exact .nil
  | cons x l ih => exact .cons (stmt_ok re hre x) ih

theorem stmt_bindings {re : Regexp} {x x' : Expr} (h : Stmt re x x') :
    Forall2 (fun b b' => NewPath re b.1 b'.1 ∧ b'.2 = b.2) (bindings1 x) (bindings1 x') := by
  cases h with
  | load c p m m' f t r fc hn =>
    simp only [bindings1]
    induction f.zip t with
    | nil => exact .nil
    | cons a l ih => exact .cons ⟨hn, rfl⟩ ih
  | other _ h =>
    have : bindings1 x = [] := by
      unfold bindings1
      split
      · exact absurd rfl (h _ _ _ _ _ _ _)
      · rfl
    rw [this]; exact .nil

theorem forall2_append {α β : Type} {R : α → β → Prop} {a a' : List α} {b b' : List β} (h : Forall2 R a b) (h' : Forall2 R a' b') :
    Forall2 R (a ++ a') (b ++ b') := by
  induction h with
  | nil => exact h'
  | cons h _ ih => exact .cons h ih

/-- **C102 (symbols).** The file loads the same symbols under the same local names in the same order, each from the new path. -/
theorem C102_symbols (re : Regexp) (hre : re.Proper) (stmts stmts' : List Expr) (h : cmdSubstituteLoad (some re) stmts = some stmts') :
    Forall2 (fun b b' => NewPath re b.1 b'.1 ∧ b'.2 = b.2) (bindings stmts) (bindings stmts') := by
  obtain ⟨s, h1, h2⟩ := C102_substitute_load re hre stmts
  rw [h] at h1; cases h1
  clear h
  unfold bindings
  induction h2 with
  | nil => exact .nil
  | cons hs _ ih => simp only [List.flatMap_cons]; exact forall2_append (stmt_bindings hs) ih

/-- **C102 (order).** Loads are replaced independently: the command on a part of the file does the same as on the whole file. -/
theorem C102_pieces (re : Option Regexp) (a b : List Expr) :
    cmdSubstituteLoad re (a ++ b) = match cmdSubstituteLoad re a, cmdSubstituteLoad re b with
      | some x, some y => some (x ++ y)
      | _, _ => none := by
  cases re <;> simp [cmdSubstituteLoad]

/-- the expression `^@`, replaced with `//` -/
def exRe : Regexp := { find := fun s => if s.head? = some 64 then some (0, 1) else none, expand := fun _ => b!"//" }
theorem exRe_proper : exRe.Proper := by
  intro s a b h
  simp only [exRe] at h
  split at h
  · rename_i hs
    cases h
    cases s with
    | nil => cases hs
    | cons => simp
  · cases h

def exLoad (path : Bytes) : Expr := .load {} {} { value := path, token := 34 :: (path ++ [34]) } [{ name := b!"b" }] [{ name := b!"a" }] {} true

example : ∃ s', cmdSubstituteLoad (some exRe) [exLoad b!"@x", exLoad b!"//y", .ident { name := b!"@x" }] = some s' ∧
    bindings s' = [(b!"//x", b!"b", b!"a"), (b!"//y", b!"b", b!"a")] ∧ s'.drop 1 = [exLoad b!"//y", .ident { name := b!"@x" }] := ⟨_, rfl, rfl, rfl⟩
/-- the token of the old path is not printed -/
example : Quote.printString b!"\"@x\"" b!"//x" false = some b!"\"//x\"" := rfl
example : Props.Quote.LexedToken b!"\"@x\"" := ⟨b!"\"@x\"", [], rfl⟩

end Verif.LoadSubstitute
