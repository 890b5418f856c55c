import Verif.Props.SortStrings
/-
C13: deduplicating a list of string literals without sorting it.
-/
namespace Verif.Props.Dedup
open Verif Verif.Syntax Verif.Walk Verif.Rewrite Verif.Props.SortStrings

/-- the element without the whole-line comments above it -/
def noBefore : Expr → Expr
  | .string s => .string (clear s)
  | x => x

/-- `x` is a literal whose value already occurs in a literal of `earlier` -/
def isDup (earlier : List Expr) (x : Expr) : Bool :=
  match litValue x with
  | none => false
  | some v => (earlier.filterMap litValue).contains v

/-- Specification: keep an element unless it repeats the value of an earlier literal. -/
def keepFirst (earlier : List Expr) : List Expr → List Expr
  | [] => []
  | x :: l => if isDup earlier x then keepFirst (earlier ++ [x]) l else x :: keepFirst (earlier ++ [x]) l

/-- Whole-line comments of the literals of the list, in order; of a duplicate also the comments after it. -/
def lineComments (earlier : List Expr) : List Expr → List Comment
  | [] => []
  | x :: l => (if isLit x then x.comments.before ++ (if isDup earlier x then x.comments.after else []) else [])
      ++ lineComments (earlier ++ [x]) l

/-- whole-line comments above the literals of a list -/
def befores (l : List Expr) : List Comment := (l.filter isLit).flatMap (·.comments.before)

theorem isDup_string (earlier : List Expr) (s : StringN) :
    isDup earlier (.string s) = (earlier.filterMap litValue).contains s.value := rfl

theorem isDup_other (earlier : List Expr) (x : Expr) (h : ∀ s, x ≠ .string s) : isDup earlier x = false := by
  cases x <;> first | rfl | exact absurd rfl (h _)

theorem dedupLoop_other (p : List Comment) (seen : List Bytes) (x : Expr) (l : List Expr) (h : ∀ s, x ≠ .string s) :
    dedupLoop p seen (x :: l) = x :: dedupLoop p seen l := by
  cases x <;> first | rfl | exact absurd rfl (h _)

theorem isLit_other (x : Expr) (h : ∀ s, x ≠ .string s) : isLit x = false ∧ litValue x = none ∧ noBefore x = x := by
  cases x <;> first | exact ⟨rfl, rfl, rfl⟩ | exact absurd rfl (h _)

/-- some literal of `l` brings a new value -/
def hasNew (earlier l : List Expr) : Bool := (keepFirst earlier l).any isLit

/-- Specification: the whole-line comments of the longest final part of the list in which no literal brings a new
value. -/
def lost (earlier : List Expr) : List Expr → List Comment
  | [] => []
  | x :: l => if hasNew earlier (x :: l) then lost (earlier ++ [x]) l else lineComments earlier (x :: l)

theorem lost_of_not_new (earlier l : List Expr) (h : hasNew earlier l = false) : lost earlier l = lineComments earlier l := by
  cases l with
  | nil => rfl
  | cons x l => rw [lost, h]; rfl

theorem values_snoc (earlier : List Expr) (x : Expr) (v : Bytes) :
    v ∈ (earlier ++ [x]).filterMap litValue ↔ v ∈ earlier.filterMap litValue ∨ litValue x = some v := by
  rw [List.filterMap_append, List.mem_append]
  cases x <;> simp [litValue, eq_comm]

theorem befores_cons_lit (s : StringN) (l : List Expr) : befores (.string s :: l) = s.comments.before ++ befores l := rfl

theorem dedup_gen (l : List Expr) : ∀ (p : List Comment) (seen : List Bytes) (earlier : List Expr),
    (∀ v, v ∈ seen ↔ v ∈ earlier.filterMap litValue) →
    (dedupLoop p seen l).map noBefore = (keepFirst earlier l).map noBefore ∧
    befores (dedupLoop p seen l) ++ (if hasNew earlier l then lost earlier l else p ++ lineComments earlier l)
      = p ++ lineComments earlier l := by
  induction l with
  | nil => intro p seen earlier _; simp [dedupLoop, keepFirst, befores, lineComments, hasNew]
  | cons x l ih =>
    intro p seen earlier hs
    by_cases hx : ∃ s, x = .string s
    · obtain ⟨s, rfl⟩ := hx
      rw [dedupLoop]
      by_cases hd : s.value ∈ seen
      · have hdup : isDup earlier (.string s) = true := by
          rw [isDup_string, List.contains_iff_mem]; exact (hs _).mp hd
        have hs' : ∀ v, v ∈ seen ↔ v ∈ (earlier ++ [Expr.string s]).filterMap litValue := by
          intro v
          rw [values_snoc, ← hs v]
          constructor
          · exact Or.inl
          · rintro (h | h)
            · exact h
            · simp [litValue] at h; rw [← h]; exact hd
        have hk : keepFirst earlier (.string s :: l) = keepFirst (earlier ++ [.string s]) l := by
          rw [keepFirst, hdup]; rfl
        have hn : hasNew earlier (.string s :: l) = hasNew (earlier ++ [.string s]) l := by
          unfold hasNew; rw [hk]
        have hc : lineComments earlier (.string s :: l)
            = s.comments.before ++ s.comments.after ++ lineComments (earlier ++ [.string s]) l := by
          rw [lineComments, hdup]; simp [isLit, Expr.comments]
        rw [if_pos hd, hk, hn, hc, lost, hn]
        have := ih (p ++ s.comments.before ++ s.comments.after) seen (earlier ++ [.string s]) hs'
        refine ⟨this.1, ?_⟩
        have h2 := this.2
        simp only [List.append_assoc] at h2 ⊢
        cases hN : hasNew (earlier ++ [.string s]) l with
        | true => simp only [hN, if_true] at h2 ⊢; exact h2
        | false => simp only [hN, Bool.false_eq_true, if_false] at h2 ⊢; exact h2
      · have hdup : isDup earlier (.string s) = false := by
          rw [isDup_string]
          cases h : (earlier.filterMap litValue).contains s.value with
          | false => rfl
          | true => exact absurd ((hs _).mpr (List.contains_iff_mem.mp h)) hd
        have hs' : ∀ v, v ∈ s.value :: seen ↔ v ∈ (earlier ++ [Expr.string s]).filterMap litValue := by
          intro v
          rw [values_snoc, ← hs v, List.mem_cons]
          simp only [litValue, Option.some.injEq]
          constructor
          · rintro (h | h)
            · exact Or.inr h.symm
            · exact Or.inl h
          · rintro (h | h)
            · exact Or.inr h
            · exact Or.inl h.symm
        have hk : keepFirst earlier (.string s :: l) = .string s :: keepFirst (earlier ++ [.string s]) l := by
          rw [keepFirst, hdup]; rfl
        have hn : hasNew earlier (.string s :: l) = true := by
          unfold hasNew; rw [hk]; rfl
        have hc : lineComments earlier (.string s :: l)
            = s.comments.before ++ lineComments (earlier ++ [.string s]) l := by
          rw [lineComments, hdup]; simp [isLit, Expr.comments]
        have h1 := ih [] (s.value :: seen) (earlier ++ [.string s]) hs'
        have hlost : befores (dedupLoop [] (s.value :: seen) l) ++ lost (earlier ++ [.string s]) l
            = lineComments (earlier ++ [.string s]) l := by
          have h2 := h1.2
          cases hN : hasNew (earlier ++ [.string s]) l with
          | true => simpa [hN] using h2
          | false => rw [lost_of_not_new _ _ hN]; simpa [hN] using h2
        rw [if_neg hd, hk, hn, hc, lost, hn]
        by_cases hp : p.length > 0
        · rw [if_pos hp]
          refine ⟨by rw [List.map_cons, List.map_cons, h1.1]; rfl, ?_⟩
          rw [befores_cons_lit]
          simp only [if_true, setBefore, List.append_assoc]
          rw [hlost]
        · rw [if_neg hp]
          have hp0 : p = [] := by cases p with
            | nil => rfl
            | cons _ _ => simp at hp
          subst hp0
          refine ⟨by rw [List.map_cons, List.map_cons, h1.1], ?_⟩
          rw [befores_cons_lit]
          simp only [if_true, List.append_assoc, List.nil_append]
          rw [hlost]
    · have hx' : ∀ s, x ≠ .string s := fun s e => hx ⟨s, e⟩
      obtain ⟨hl, hv, hb⟩ := isLit_other x hx'
      rw [dedupLoop_other _ _ _ _ hx']
      have hs' : ∀ v, v ∈ seen ↔ v ∈ (earlier ++ [x]).filterMap litValue := by
        intro v; rw [values_snoc, ← hs v, hv]; simp
      have h1 := ih p seen (earlier ++ [x]) hs'
      have hk : keepFirst earlier (x :: l) = x :: keepFirst (earlier ++ [x]) l := by
        rw [keepFirst, isDup_other _ _ hx']; rfl
      have hn : hasNew earlier (x :: l) = hasNew (earlier ++ [x]) l := by
        unfold hasNew; rw [hk, List.any_cons, hl]; rfl
      have hc : lineComments earlier (x :: l) = lineComments (earlier ++ [x]) l := by
        rw [lineComments, hl]; rfl
      rw [hk, hn, hc, lost, hn]
      refine ⟨by rw [List.map_cons, List.map_cons, h1.1], ?_⟩
      have hbf : befores (x :: dedupLoop p seen l) = befores (dedupLoop p seen l) := by
        simp [befores, hl]
      rw [hbf]
      have h2 := h1.2
      cases hN : hasNew (earlier ++ [x]) l with
      | true => simpa [hN] using h2
      | false => simp only [hN, Bool.false_eq_true, if_false] at h2 ⊢; exact h2

/-- **C13**: deduplication keeps exactly the elements that do not repeat an earlier literal, in their order; apart from
whole-line comments each is unchanged. -/
theorem C13_keeps_first_occurrences (l : List Expr) :
    (dedupStringExprs l).map noBefore = (keepFirst [] l).map noBefore :=
  (dedup_gen l [] [] [] (by simp)).1

/-- **C13**: the whole-line comments of the literals (including those of dropped ones) are kept, in their order, above
literals of the result, except exactly the comments of the duplicates after the last literal that brings a new value. -/
theorem C13_comments (l : List Expr) :
    befores (dedupStringExprs l) ++ lost [] l = lineComments [] l := by
  have := (dedup_gen l [] [] [] (by simp)).2
  unfold dedupStringExprs
  cases h : hasNew [] l with
  | true => simpa [h] using this
  | false => rw [lost_of_not_new _ _ h]; simpa [h] using this

theorem noBefore_lit (l : List Expr) : (l.map noBefore).filterMap litValue = l.filterMap litValue := by
  rw [List.filterMap_map]
  congr 1
  funext x
  cases x <;> rfl

theorem keepFirst_values (l : List Expr) : ∀ earlier,
    ((keepFirst earlier l).filterMap litValue).Nodup ∧
    ∀ v, v ∈ (keepFirst earlier l).filterMap litValue ↔ (v ∈ l.filterMap litValue ∧ v ∉ earlier.filterMap litValue) := by
  induction l with
  | nil => intro e; simp [keepFirst]
  | cons x l ih =>
    intro e
    rw [keepFirst]
    have := ih (e ++ [x])
    by_cases hx : ∃ s, x = .string s
    · obtain ⟨s, rfl⟩ := hx
      cases hd : isDup e (.string s) with
      | true =>
        rw [isDup_string, List.contains_iff_mem] at hd
        simp only [if_true]
        refine ⟨this.1, fun v => ?_⟩
        rw [this.2 v, values_snoc]
        simp only [List.filterMap_cons, litValue, List.mem_cons, Option.some.injEq, not_or]
        constructor
        · rintro ⟨h1, h2, h3⟩; exact ⟨Or.inr h1, h2⟩
        · rintro ⟨h1 | h1, h2⟩
          · rw [h1] at h2; exact absurd hd h2
          · exact ⟨h1, h2, fun e => h2 (by rw [← e]; exact hd)⟩
      | false =>
        have hd' : s.value ∉ e.filterMap litValue := by
          intro h
          rw [isDup_string] at hd
          rw [List.contains_iff_mem.mpr h] at hd; cases hd
        simp only [Bool.false_eq_true, if_false, List.filterMap_cons, litValue]
        refine ⟨List.nodup_cons.mpr ⟨?_, this.1⟩, fun v => ?_⟩
        · rw [this.2]; rw [values_snoc]; simp [litValue]
        · rw [List.mem_cons, this.2 v, values_snoc]
          simp only [litValue, List.mem_cons, Option.some.injEq, not_or]
          constructor
          · rintro (h | ⟨h1, h2, h3⟩)
            · exact ⟨Or.inl h, by rw [h]; exact hd'⟩
            · exact ⟨Or.inr h1, h2⟩
          · rintro ⟨h1, h2⟩
            by_cases hv : v = s.value
            · exact Or.inl hv
            · rcases h1 with h1 | h1
              · exact Or.inl h1
              · exact Or.inr ⟨h1, h2, fun e => hv e.symm⟩
    · have hx' : ∀ s, x ≠ .string s := fun s e => hx ⟨s, e⟩
      obtain ⟨hl, hv, hb⟩ := isLit_other x hx'
      rw [isDup_other _ _ hx']
      simp only [Bool.false_eq_true, if_false, List.filterMap_cons, hv]
      refine ⟨this.1, fun v => ?_⟩
      rw [this.2 v, values_snoc, hv]; simp

/-- **C13**: every value occurs exactly once in the result, and no value is lost or invented. -/
theorem C13_values (l : List Expr) :
    ((dedupStringExprs l).filterMap litValue).Nodup ∧
    ∀ v, v ∈ (dedupStringExprs l).filterMap litValue ↔ v ∈ l.filterMap litValue := by
  rw [← noBefore_lit (dedupStringExprs l), C13_keeps_first_occurrences, noBefore_lit]
  have := keepFirst_values l []
  refine ⟨this.1, fun v => ?_⟩
  rw [this.2 v]; simp

/-- **C13 (witness)**: a comment above a final duplicate is lost, contrary to the doc comment of the function. -/
theorem C13_lost_comment_witness :
    dedupStringExprs [lit b!"a", .string { value := b!"a", comments := { before := [{ token := b!"# why" }] } }]
      = [lit b!"a"] := by rfl

/-- the general case: comments of a dropped literal move down to the next new one -/
example : dedupStringExprs [lit b!"a", .string { value := b!"a", comments := { before := [{ token := b!"# why" }] } }, lit b!"b"]
    = [lit b!"a", .string { value := b!"b", comments := { before := [{ token := b!"# why" }] } }] := by rfl

end Verif.Props.Dedup
