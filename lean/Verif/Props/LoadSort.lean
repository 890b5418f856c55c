import Verif.Proofs.Sort
import Verif.Model.Loads
/-
C18, C19: sorting load statements.
-/
namespace Verif.Props.LoadSort
open Verif Verif.Syntax Verif.Walk Verif.Rewrite

/-! ### Specification -/

/-- a statement across which loads are not moved: neither a load nor removed (nil) -/
def barrier (e : Expr) : Bool := !isLoad e && !e.isNil

/-- `p ++ s ++ q` where `s` is a maximal stretch without barriers -/
structure Stretch (p s q : List Expr) : Prop where
  inside : ∀ e ∈ s, barrier e = false
  before : p = [] ∨ ∃ p' b, p = p' ++ [b] ∧ barrier b = true
  after : q = [] ∨ ∃ b q', q = b :: q' ∧ barrier b = true

/-- the sorting algorithm returns a permutation of its input -/
def Permutes (srt : List Expr → List Expr) : Prop := ∀ l, (srt l).Perm l

/-! ### Proofs -/

theorem loadChunks_ne (l : List Expr) : loadChunks l ≠ [] := by
  induction l with
  | nil => simp [loadChunks]
  | cons e l ih =>
    rw [loadChunks]
    split
    · split <;> simp
    · split
      · exact ih
      · simp

theorem loadChunks_barrier (p q : List Expr) (b : Expr) (hb : barrier b = true) :
    loadChunks (p ++ b :: q) = loadChunks p ++ loadChunks q := by
  induction p with
  | nil =>
    simp only [barrier, Bool.and_eq_true, Bool.not_eq_true'] at hb
    simp [loadChunks, hb.1, hb.2]
  | cons e p ih =>
    simp only [List.cons_append, loadChunks, ih]
    split
    · cases h : loadChunks p with
      | nil => exact absurd h (loadChunks_ne p)
      | cons c cs => rfl
    · split <;> rfl

theorem loadChunks_inside (s : List Expr) (h : ∀ e ∈ s, barrier e = false) : loadChunks s = [s.filter isLoad] := by
  induction s with
  | nil => rfl
  | cons e s ih =>
    have hb := h e (by simp)
    have ih := ih (fun x hx => h x (by simp [hx]))
    rw [loadChunks, ih]
    cases hl : isLoad e with
    | true => simp [hl]
    | false =>
      have : e.isNil = true := by simpa [barrier, hl] using hb
      simp [hl, this]

theorem chunks_filter (l : List Expr) : (loadChunks l).flatten = l.filter isLoad := by
  induction l with
  | nil => rfl
  | cons e l ih =>
    rw [loadChunks]
    cases hl : isLoad e with
    | true =>
      simp only [if_true]
      cases h : loadChunks l with
      | nil => exact absurd h (loadChunks_ne l)
      | cons c cs => rw [h] at ih; simp [hl, ← ih]
    | false =>
      simp only [Bool.false_eq_true, if_false]
      split
      · simp [hl, ih]
      · simp [hl, ih]

theorem flatMap_length {srt : List Expr → List Expr} (h : Permutes srt) (cs : List (List Expr)) :
    (cs.flatMap srt).length = cs.flatten.length := by
  induction cs with
  | nil => rfl
  | cons c cs ih => simp only [List.flatMap_cons, List.flatten_cons, List.length_append, ih, (h c).length_eq]

theorem chunks_length {srt : List Expr → List Expr} (h : Permutes srt) (l : List Expr) :
    ((loadChunks l).flatMap srt).length = (l.filter isLoad).length := by
  rw [flatMap_length h, chunks_filter]

theorem fillLoads_append (p : List Expr) : ∀ (a b q : List Expr), a.length = (p.filter isLoad).length →
    fillLoads (p ++ q) (a ++ b) = fillLoads p a ++ fillLoads q b := by
  induction p with
  | nil => intro a b q h; simp at h; subst h; simp [fillLoads]
  | cons e p ih =>
    intro a b q h
    cases hl : isLoad e with
    | true =>
      cases a with
      | nil => simp [hl] at h
      | cons x a =>
        simp only [List.filter_cons, hl, if_true, List.length_cons, Nat.add_right_cancel_iff] at h
        simp only [List.cons_append, fillLoads, hl, if_true, ih a b q h]
    | false =>
      simp only [List.filter_cons, hl, Bool.false_eq_true, if_false] at h
      simp only [List.cons_append, fillLoads, hl, Bool.false_eq_true, if_false, ih a b q h]

theorem fillLoads_length (l : List Expr) : ∀ a, (fillLoads l a).length = l.length := by
  induction l with
  | nil => intro a; rfl
  | cons e l ih =>
    intro a
    cases a <;> simp only [fillLoads] <;> split <;> simp [ih]

theorem fillLoads_filter (l : List Expr) : ∀ a : List Expr, a.length = (l.filter isLoad).length → (∀ e ∈ a, isLoad e = true) →
    (fillLoads l a).filter isLoad = a := by
  induction l with
  | nil => intro a h _; simp at h; subst h; rfl
  | cons e l ih =>
    intro a h ha
    cases hl : isLoad e with
    | true =>
      cases a with
      | nil => simp [hl] at h
      | cons x a =>
        simp only [List.filter_cons, hl, if_true, List.length_cons, Nat.add_right_cancel_iff] at h
        simp only [fillLoads, hl, if_true, List.filter_cons, ha x (by simp)]
        rw [ih a h (fun e he => ha e (by simp [he]))]
    | false =>
      simp only [List.filter_cons, hl, Bool.false_eq_true, if_false] at h
      simp only [fillLoads, hl, Bool.false_eq_true, if_false, List.filter_cons, ih a h ha]

theorem fillLoads_get (l : List Expr) : ∀ (a : List Expr) (i : Nat) (e : Expr), (∀ x ∈ a, isLoad x = true) → l[i]? = some e →
    ∃ e', (fillLoads l a)[i]? = some e' ∧ isLoad e' = isLoad e ∧ (isLoad e = false → e' = e) := by
  induction l with
  | nil => intro a i e _ h; simp at h
  | cons x l ih =>
    intro a i e ha h
    cases hl : isLoad x with
    | true =>
      cases a with
      | nil =>
        simp only [fillLoads, hl, if_true]
        cases i with
        | zero => simp at h ⊢; rw [← h]; simp
        | succ i => simp only [List.getElem?_cons_succ] at h ⊢; exact ih [] i e (by intro x hx; cases hx) h
      | cons y a =>
        simp only [fillLoads, hl, if_true]
        cases i with
        | zero => simp at h ⊢; rw [← h, hl, ha y (by simp)]; simp
        | succ i => simp only [List.getElem?_cons_succ] at h ⊢; exact ih a i e (fun z hz => ha z (by simp [hz])) h
    | false =>
      simp only [fillLoads, hl, Bool.false_eq_true, if_false]
      cases i with
      | zero => simp at h ⊢; rw [← h, hl]; simp
      | succ i => simp only [List.getElem?_cons_succ] at h ⊢; exact ih a i e ha h

theorem sorted_isLoad {srt : List Expr → List Expr} (h : Permutes srt) (l : List Expr) :
    ∀ x ∈ (loadChunks l).flatMap srt, isLoad x = true := by
  intro x hx
  rw [List.mem_flatMap] at hx
  obtain ⟨c, hc, hx⟩ := hx
  have : x ∈ c := (h c).mem_iff.mp hx
  have : x ∈ (loadChunks l).flatten := List.mem_flatten.mpr ⟨c, hc, this⟩
  rw [chunks_filter, List.mem_filter] at this
  exact this.2

theorem srt_nil {srt : List Expr → List Expr} (h : Permutes srt) : srt [] = [] := (h []).eq_nil

/-- sorting acts on the stretches independently -/
theorem sortLoads_barrier {srt : List Expr → List Expr} (h : Permutes srt) (p q : List Expr) (b : Expr)
    (hb : barrier b = true) :
    sortLoadsWith srt (p ++ b :: q) = sortLoadsWith srt p ++ b :: sortLoadsWith srt q := by
  have hl : isLoad b = false := by
    simp only [barrier, Bool.and_eq_true, Bool.not_eq_true'] at hb; exact hb.1
  rw [sortLoadsWith, loadChunks_barrier p q b hb, List.flatMap_append,
    fillLoads_append p _ _ _ (chunks_length h p)]
  simp [fillLoads, hl, sortLoadsWith]

theorem sortLoads_inside {srt : List Expr → List Expr} (s : List Expr) (hs : ∀ e ∈ s, barrier e = false) :
    sortLoadsWith srt s = fillLoads s (srt (s.filter isLoad)) := by
  rw [sortLoadsWith, loadChunks_inside s hs]; simp

/-- **C18 (places).** For every sorting algorithm that permutes its input: sorting keeps the number of statements, every
statement that is not a load stays where it is, and loads are only put where there were loads. -/
theorem C18_places (srt : List Expr → List Expr) (h : Permutes srt) (l : List Expr) :
    (sortLoadsWith srt l).length = l.length ∧
    ∀ (i : Nat) e, l[i]? = some e →
      ∃ e', (sortLoadsWith srt l)[i]? = some e' ∧ isLoad e' = isLoad e ∧ (isLoad e = false → e' = e) :=
  ⟨fillLoads_length l _, fun i e he => fillLoads_get l _ i e (sorted_isLoad h l) he⟩

/-- **C18 (stretches).** In every maximal stretch of statements without barrier, the loads afterwards are exactly what the
sorting algorithm makes of the loads of that stretch (so: a permutation of them); nothing moves from one stretch to
another. -/
theorem C18_permutes_within_stretches (srt : List Expr → List Expr) (h : Permutes srt) (p s q : List Expr)
    (hs : Stretch p s q) :
    ∃ p' s' q', sortLoadsWith srt (p ++ s ++ q) = p' ++ s' ++ q' ∧
      p'.length = p.length ∧ s'.length = s.length ∧ q'.length = q.length ∧
      s'.filter isLoad = srt (s.filter isLoad) ∧ (s'.filter isLoad).Perm (s.filter isLoad) := by
  have hin := hs.inside
  have hperm := h (s.filter isLoad)
  have hfil : (fillLoads s (srt (s.filter isLoad))).filter isLoad = srt (s.filter isLoad) :=
    fillLoads_filter s _ hperm.length_eq (fun e he => by
      have := hperm.mem_iff.mp he
      rw [List.mem_filter] at this; exact this.2)
  have hq : ∃ q', sortLoadsWith srt (s ++ q) = fillLoads s (srt (s.filter isLoad)) ++ q' ∧ q'.length = q.length := by
    rcases hs.after with rfl | ⟨b, q, rfl, hb⟩
    · exact ⟨[], by rw [List.append_nil, List.append_nil, sortLoads_inside s hin], rfl⟩
    · refine ⟨b :: sortLoadsWith srt q, ?_, ?_⟩
      · rw [sortLoads_barrier h s q b hb, sortLoads_inside s hin]
      · simp [(C18_places srt h q).1]
  obtain ⟨q', eq, lq⟩ := hq
  rcases hs.before with rfl | ⟨p, b, rfl, hb⟩
  · exact ⟨[], _, q', by simpa using eq, rfl, fillLoads_length _ _, lq, hfil, by rw [hfil]; exact hperm⟩
  · refine ⟨sortLoadsWith srt p ++ [b], _, q', ?_, ?_, fillLoads_length _ _, lq, hfil, by rw [hfil]; exact hperm⟩
    · have : p ++ [b] ++ s ++ q = p ++ b :: (s ++ q) := by simp
      rw [this, sortLoads_barrier h p (s ++ q) b hb, eq]
      simp
    · simp [(C18_places srt h p).1]

/-- **C18 (the file).** Unless disabled by a comment, this is what the rewrite does to the statements of a file; nothing
else of the file changes. -/
theorem C18_file (f : File) :
    sortLoadStatements f = f ∨ sortLoadStatements f = { f with stmts := sortLoadsWith (sortBy loadLess) f.stmts } := by
  unfold sortLoadStatements; split <;> simp

theorem C18_file_permutes : Permutes (sortBy loadLess) := fun l => sortBy_perm _ l

/-! ### C19: the order -/

/-- **C19 witness.** The comparison of module labels is not transitive: `//b:x` < `//b/x:x` < `//B/y:x`, but not
`//b:x` < `//B/y:x`; so it is not an order at all, and the result of sorting depends on the algorithm. -/
theorem C19_not_transitive_witness :
    compareLoadLabels b!"//b:x" b!"//b/x:x" = true ∧ compareLoadLabels b!"//b/x:x" b!"//B/y:x" = true ∧
    compareLoadLabels b!"//b:x" b!"//B/y:x" = false := by decide

theorem lexLess_prefix {α} [DecidableEq α] (lt : α → α → Bool) (a b : List α) :
    lexLess lt (a ++ b) a = false := by
  induction a with
  | nil => cases b <;> rfl
  | cons x a ih => simp [lexLess, ih]

theorem cmpChunks_asymm (a b : List Bytes) : cmpChunks a b = some true → cmpChunks b a = some false := by
  induction a generalizing b with
  | nil => simp [cmpChunks]
  | cons x a ih =>
    cases b with
    | nil => simp [cmpChunks]
    | cons y b =>
      simp only [cmpChunks]
      by_cases h : toLower x = toLower y
      · rw [if_neg (by simpa using h), if_neg (by simpa using h.symm)]; exact ih b
      · rw [if_pos h, if_pos (fun e => h e.symm)]
        intro h1
        simp only [Option.some.injEq] at h1 ⊢
        exact strLess_total.asymm h1

theorem cmpChunks_none (a b : List Bytes) : cmpChunks a b = none → cmpChunks b a = none ∨ cmpChunks b a = some false := by
  induction a generalizing b with
  | nil => intro _; cases b <;> simp [cmpChunks]
  | cons x a ih =>
    cases b with
    | nil => simp [cmpChunks]
    | cons y b =>
      simp only [cmpChunks]
      by_cases h : toLower x = toLower y
      · rw [if_neg (by simpa using h), if_neg (by simpa using h.symm)]; exact ih b
      · rw [if_pos h]; simp

theorem comparePaths_asymm (a b : Bytes) (h : comparePaths a b = true) : comparePaths b a = false := by
  unfold comparePaths at *
  by_cases e : a = b
  · simp [e] at h
  · have e' : ¬ b = a := fun x => e x.symm
    rw [if_neg e] at h
    rw [if_neg e']
    cases hc : cmpChunks (splitAll c!"/" a) (splitAll c!"/" b) with
    | none =>
      rw [hc] at h
      rcases cmpChunks_none _ _ hc with h2 | h2
      · rw [h2]
        simp only [Bool.not_eq_true'] at h
        rcases strLess_total.total a b e with h3 | h3
        · simp [h3]
        · rw [h3] at h; cases h
      · rw [h2]
    | some r =>
      rw [hc] at h
      simp only at h
      rw [h] at hc
      rw [cmpChunks_asymm _ _ hc]

theorem comparePaths_irrefl (a : Bytes) : comparePaths a a = false := by simp [comparePaths]

/-- **C19 (always).** The comparison never puts a label before itself, nor two labels before each other. -/
theorem C19_irreflexive_asymmetric (a b : Bytes) :
    compareLoadLabels a a = false ∧ (compareLoadLabels a b = true → compareLoadLabels b a = false) := by
  refine ⟨by simp [compareLoadLabels, comparePaths_irrefl], ?_⟩
  intro h
  simp only [compareLoadLabels] at *
  by_cases h1 : hasPrefix a b!"@" = hasPrefix b b!"@"
  · rw [if_neg (by simpa using h1)] at h
    rw [if_neg (by simpa using h1.symm)]
    by_cases h2 : (Labels.parseRelative a [0x7F]).repository = (Labels.parseRelative b [0x7F]).repository
    · rw [if_neg (by simpa using h2)] at h
      rw [if_neg (by simpa using h2.symm)]
      by_cases h3 : ((Labels.parseRelative a [0x7F]).package = []) = ((Labels.parseRelative b [0x7F]).package = [])
      · rw [if_neg (by simpa using h3)] at h
        rw [if_neg (by simpa using h3.symm)]
        by_cases h4 : (Labels.parseRelative a [0x7F]).package = (Labels.parseRelative b [0x7F]).package
        · rw [if_neg (by simpa using h4)] at h
          rw [if_neg (by simpa using h4.symm)]
          exact comparePaths_asymm _ _ h
        · rw [if_pos h4] at h
          rw [if_pos (fun e => h4 e.symm)]
          exact comparePaths_asymm _ _ h
      · rw [if_pos h3] at h
        rw [if_pos (fun e => h3 e.symm)]
        simp only [decide_eq_true_eq] at h
        rw [h] at h3
        simpa using fun h' => h3 (by simp [h'])
    · rw [if_pos h2] at h
      rw [if_pos (fun e => h2 e.symm)]
      exact strLess_total.asymm h
  · rw [if_pos h1] at h
    rw [if_pos (fun e => h1 e.symm)]
    rw [h] at h1
    cases hb : hasPrefix b b!"@" <;> simp_all

/-- Two paths have no components that differ in case only. -/
def NoClash (p q : Bytes) : Prop :=
  ∀ x ∈ splitAll c!"/" p, ∀ y ∈ splitAll c!"/" q, toLower x = toLower y → x = y

/-- Two module labels have no package or file name components that differ in case only. -/
def LabelsNoClash (a b : Bytes) : Prop :=
  NoClash (Labels.parseRelative a [0x7F]).package (Labels.parseRelative b [0x7F]).package ∧
  NoClash (Labels.parseRelative a [0x7F]).target (Labels.parseRelative b [0x7F]).target

/-- components of a path, in lower case -/
def lowParts (p : Bytes) : List Bytes := (splitAll c!"/" p).map toLower

theorem splitAll_ne (c : UInt8) (s : Bytes) : splitAll c s ≠ [] := by
  cases s with
  | nil => simp [splitAll]
  | cons x s => rw [splitAll]; split; simp; split <;> simp

theorem joinWith_splitAll (c : UInt8) (s : Bytes) : joinWith c (splitAll c s) = s := by
  induction s with
  | nil => rfl
  | cons x s ih =>
    rw [splitAll]
    cases h : splitAll c s with
    | nil => exact absurd h (splitAll_ne c s)
    | cons w ws =>
      rw [h] at ih
      by_cases hx : x = c
      · rw [if_pos hx]
        show [] ++ c :: joinWith c (w :: ws) = _
        rw [ih, hx]; rfl
      · rw [if_neg hx]
        cases ws with
        | nil => simp only [joinWith] at *; rw [ih]
        | cons v vs => simp only [joinWith, List.cons_append] at *; rw [ih]

theorem joinWith_append (c : UInt8) (a b : List Bytes) (ha : a ≠ []) : ∃ r, joinWith c (a ++ b) = joinWith c a ++ r := by
  induction a with
  | nil => exact absurd rfl ha
  | cons w a ih =>
    cases a with
    | nil =>
      cases b with
      | nil => exact ⟨[], by simp [joinWith]⟩
      | cons v b => exact ⟨c :: joinWith c (v :: b), by simp [joinWith]⟩
    | cons v a =>
      obtain ⟨r, hr⟩ := ih (by simp)
      refine ⟨r, ?_⟩
      simp only [List.cons_append, joinWith] at *
      rw [hr]; simp

/-- the comparison loop is lexicographic comparison of the lower-case components, as long as there is no clash -/
theorem cmpChunks_lex (a b : List Bytes) (h : ∀ x ∈ a, ∀ y ∈ b, toLower x = toLower y → x = y) :
    (cmpChunks a b = none ∧ ∃ r, b = a ++ r) ∨
    (cmpChunks a b = some (lexLess strLess (a.map toLower) (b.map toLower)) ∧ a ≠ b) := by
  induction a generalizing b with
  | nil => left; exact ⟨rfl, b, rfl⟩
  | cons x a ih =>
    cases b with
    | nil => right; exact ⟨rfl, by simp⟩
    | cons y b =>
      simp only [cmpChunks, List.map_cons, lexLess]
      by_cases e : toLower x = toLower y
      · have hxy : x = y := h x (by simp) y (by simp) e
        rw [if_neg (by simpa using e), if_pos e]
        rcases ih b (fun u hu v hv => h u (by simp [hu]) v (by simp [hv])) with ⟨h1, r, h2⟩ | ⟨h1, h2⟩
        · left; exact ⟨h1, r, by rw [hxy, h2]; rfl⟩
        · right; exact ⟨h1, by simp [h2]⟩
      · rw [if_pos e, if_neg e]
        right; exact ⟨rfl, fun he => e (by simp only [List.cons.injEq] at he; rw [he.1])⟩

theorem comparePaths_lex (p q : Bytes) (h : NoClash p q) :
    comparePaths p q = lexLess strLess (lowParts p) (lowParts q) := by
  unfold comparePaths
  by_cases e : p = q
  · rw [if_pos e, e]; exact ((lexLess_total strLess_total).irrefl _).symm
  · rw [if_neg e]
    rcases cmpChunks_lex _ _ h with ⟨h1, r, h2⟩ | ⟨h1, _⟩
    · rw [h1]
      simp only [lowParts]
      rw [h2, List.map_append]
      have hp : p = joinWith c!"/" (splitAll c!"/" p) := (joinWith_splitAll _ _).symm
      obtain ⟨t, ht⟩ := joinWith_append c!"/" (splitAll c!"/" p) r (splitAll_ne _ _)
      rw [← h2, joinWith_splitAll, joinWith_splitAll] at ht
      have hle : strLess q p = false := by
        rw [ht]; exact lexLess_prefix _ p t
      rw [hle]
      have hr : r ≠ [] := by
        intro hr
        rw [hr, List.append_nil] at h2
        apply e
        rw [hp, ← h2, joinWith_splitAll]
      have : ∀ (l : List Bytes), lexLess strLess l (l ++ r.map toLower) = true := by
        intro l
        induction l with
        | nil => cases r with
          | nil => exact absurd rfl hr
          | cons _ _ => rfl
        | cons x l ih => simp [lexLess, ih]
      rw [this]; rfl
    · rw [h1]; rfl

theorem lowParts_inj (p q : Bytes) (h : NoClash p q) (e : lowParts p = lowParts q) : p = q := by
  rw [← joinWith_splitAll c!"/" p, ← joinWith_splitAll c!"/" q]
  congr 1
  unfold NoClash at h
  unfold lowParts at e
  generalize splitAll c!"/" p = a at *
  generalize splitAll c!"/" q = b at *
  induction a generalizing b with
  | nil => cases b with
    | nil => rfl
    | cons _ _ => simp at e
  | cons x a ih =>
    cases b with
    | nil => simp at e
    | cons y b =>
      simp only [List.map_cons, List.cons.injEq] at e
      rw [h x (by simp) y (by simp) e.1, ih b (fun u hu v hv => h u (by simp [hu]) v (by simp [hv])) e.2]

theorem boolLess_total : TotalBy id (fun x y : Bool => x && !y) where
  irrefl := by intro a; cases a <;> rfl
  trans := by intro a b c; cases a <;> cases b <;> cases c <;> simp
  total := by intro a b h; cases a <;> cases b <;> simp_all

/-- sort key of a module label: explicit repository first, then repository, empty package first, package, file; paths by
component and ignoring case -/
def labelKey (a : Bytes) : Bool × Bytes × Bool × List Bytes × List Bytes :=
  (hasPrefix a b!"@", (Labels.parseRelative a [0x7F]).repository, (Labels.parseRelative a [0x7F]).package.isEmpty,
    lowParts (Labels.parseRelative a [0x7F]).package, lowParts (Labels.parseRelative a [0x7F]).target)

/-- lexicographic comparison of sort keys -/
def idealLess (a b : Bytes) : Bool :=
  if (labelKey a).1 ≠ (labelKey b).1 then (labelKey a).1 && !(labelKey b).1
  else if (labelKey a).2.1 ≠ (labelKey b).2.1 then strLess (labelKey a).2.1 (labelKey b).2.1
  else if (labelKey a).2.2.1 ≠ (labelKey b).2.2.1 then (labelKey a).2.2.1 && !(labelKey b).2.2.1
  else if (labelKey a).2.2.2.1 ≠ (labelKey b).2.2.2.1 then lexLess strLess (labelKey a).2.2.2.1 (labelKey b).2.2.2.1
  else lexLess strLess (labelKey a).2.2.2.2 (labelKey b).2.2.2.2

theorem idealLess_total : TotalBy labelKey idealLess :=
  TotalBy.lex (k1 := fun a => (labelKey a).1) boolLess_total
    (TotalBy.lex (k1 := fun a => (labelKey a).2.1) strLess_total
      (TotalBy.lex (k1 := fun a => (labelKey a).2.2.1) boolLess_total
        (TotalBy.lex (k1 := fun a => (labelKey a).2.2.2.1) (lexLess_total strLess_total)
          (TotalBy.comap (lexLess_total strLess_total) (fun a => (labelKey a).2.2.2.2)))))

/-- `compareLoadLabels` on what it looks at -/
theorem compare_ideal_aux (e1 e2 : Bool) (a b : Labels.Label) (h : NoClash a.package b.package)
    (h' : NoClash a.target b.target) :
    (if e1 ≠ e2 then e1
      else if a.repository ≠ b.repository then strLess a.repository b.repository
      else if (a.package = []) ≠ (b.package = []) then decide (a.package = [])
      else if a.package ≠ b.package then comparePaths a.package b.package
      else comparePaths a.target b.target)
    = (if e1 ≠ e2 then e1 && !e2
      else if a.repository ≠ b.repository then strLess a.repository b.repository
      else if a.package.isEmpty ≠ b.package.isEmpty then a.package.isEmpty && !b.package.isEmpty
      else if lowParts a.package ≠ lowParts b.package then lexLess strLess (lowParts a.package) (lowParts b.package)
      else lexLess strLess (lowParts a.target) (lowParts b.target)) := by
  rw [comparePaths_lex _ _ h, comparePaths_lex _ _ h']
  have hp : (a.package ≠ b.package) ↔ (lowParts a.package ≠ lowParts b.package) :=
    ⟨fun hn e => hn (lowParts_inj _ _ h e), fun hn e => hn (by rw [e])⟩
  by_cases h1 : e1 = e2
  · subst h1
    simp only [ne_eq, not_true_eq_false, if_false]
    by_cases h2 : a.repository = b.repository
    · simp only [h2, not_true_eq_false, if_false]
      by_cases ha : a.package = [] <;> by_cases hb : b.package = []
      · simp [ha, hb]
      · simp [ha, hb]
      · simp [ha, hb]
      · have ea : a.package.isEmpty = false := by simpa using ha
        have eb : b.package.isEmpty = false := by simpa using hb
        simp only [ha, hb, ea, eb, not_true_eq_false, if_false]
        by_cases h4 : lowParts a.package = lowParts b.package
        · have := lowParts_inj _ _ h h4
          simp [this]
        · have : ¬ a.package = b.package := fun e => h4 (by rw [e])
          simp [this, h4]
    · simp [h2]
  · cases e1 <;> cases e2 <;> simp_all

theorem compare_ideal (a b : Bytes) (h : LabelsNoClash a b) : compareLoadLabels a b = idealLess a b :=
  compare_ideal_aux _ _ _ _ h.1 h.2

/-- **C19 (partial).** On any collection of module labels in which no two path components differ in case only, the
comparison is a strict weak order, in fact total: incomparable labels have the same repository, package and file, and agree
on having an explicit repository. (Missing: labels whose paths differ in case only, where the claim is false, see
`C19_not_transitive_witness`.) -/
theorem C19_strict_weak_order_partial (S : Bytes → Prop) (hS : ∀ a b, S a → S b → LabelsNoClash a b) :
    (∀ a, S a → compareLoadLabels a a = false) ∧
    (∀ a b c, S a → S b → S c → compareLoadLabels a b = true → compareLoadLabels b c = true →
      compareLoadLabels a c = true) ∧
    (∀ a b, S a → S b → compareLoadLabels a b = false → compareLoadLabels b a = false →
      hasPrefix a b!"@" = hasPrefix b b!"@" ∧ Labels.parseRelative a [0x7F] = Labels.parseRelative b [0x7F]) ∧
    (∀ a b c, S a → S b → S c → compareLoadLabels a b = false → compareLoadLabels b a = false →
      compareLoadLabels b c = false → compareLoadLabels c b = false →
      compareLoadLabels a c = false ∧ compareLoadLabels c a = false) := by
  have hT : ∀ a b, S a → S b → compareLoadLabels a b = false → compareLoadLabels b a = false →
      labelKey a = labelKey b := by
    intro a b ha hb h1 h2
    rw [compare_ideal _ _ (hS a b ha hb)] at h1
    rw [compare_ideal _ _ (hS b a hb ha)] at h2
    apply Classical.byContradiction
    intro hne
    rcases idealLess_total.total a b hne with h | h
    · rw [h] at h1; cases h1
    · rw [h] at h2; cases h2
  refine ⟨fun a _ => (C19_irreflexive_asymmetric a a).1, ?_, ?_, ?_⟩
  · intro a b c ha hb hc h1 h2
    rw [compare_ideal _ _ (hS _ _ ‹_› ‹_›)] at *
    exact idealLess_total.trans a b c h1 h2
  · intro a b ha hb h1 h2
    have hk := hT a b ha hb h1 h2
    simp only [labelKey, Prod.mk.injEq] at hk
    obtain ⟨k1, k2, _, k4, k5⟩ := hk
    refine ⟨k1, ?_⟩
    have e1 := lowParts_inj _ _ (hS a b ha hb).1 k4
    have e2 := lowParts_inj _ _ (hS a b ha hb).2 k5
    generalize Labels.parseRelative a [0x7F] = la at *
    generalize Labels.parseRelative b [0x7F] = lb at *
    cases la; cases lb; simp_all
  · intro a b c ha hb hc h1 h2 h3 h4
    have e : labelKey a = labelKey c := (hT a b ha hb h1 h2).trans (hT b c hb hc h3 h4)
    rw [compare_ideal _ _ (hS _ _ ‹_› ‹_›), compare_ideal _ _ (hS _ _ ‹_› ‹_›)]
    unfold idealLess
    rw [e]
    have : ∀ x : List Bytes, lexLess strLess x x = false := (lexLess_total strLess_total).irrefl
    simp [this]

/-- the hypothesis of `C19_strict_weak_order_partial` is met by labels that occur in practice -/
example : ∀ a b, (a = b!"//foo/Bar:defs.bzl" ∨ a = b!":x.bzl" ∨ a = b!"@r//foo:a.bzl") →
    (b = b!"//foo/Bar:defs.bzl" ∨ b = b!":x.bzl" ∨ b = b!"@r//foo:a.bzl") → LabelsNoClash a b := by
  rintro a b (rfl | rfl | rfl) (rfl | rfl | rfl) <;> unfold LabelsNoClash NoClash <;> decide

theorem idealLess_strictWeak : StrictWeak idealLess := by
  refine idealLess_total.strictWeak ?_
  intro a b c h
  unfold idealLess
  rw [h]
  exact ⟨rfl, rfl⟩

theorem insertBy_congr {α} {l1 l2 : α → α → Bool} (x : α) (l : List α) (h : ∀ y ∈ l, l1 y x = l2 y x) :
    insertBy l1 x l = insertBy l2 x l := by
  induction l with
  | nil => rfl
  | cons y l ih => simp only [insertBy, h y (by simp), ih (fun z hz => h z (by simp [hz]))]

theorem sortBy_congr {α} {l1 l2 : α → α → Bool} (l : List α) (h : ∀ x ∈ l, ∀ y ∈ l, l1 x y = l2 x y) :
    sortBy l1 l = sortBy l2 l := by
  induction l with
  | nil => rfl
  | cons x l ih =>
    rw [sortBy, sortBy, ih (fun a ha b hb => h a (by simp [ha]) b (by simp [hb]))]
    apply insertBy_congr
    intro y hy
    have : y ∈ l := (sortBy_perm _ l).mem_iff.mp hy
    exact h y (by simp [this]) x (by simp)

def moduleOf (e : Expr) : Bytes := (loadModule e).getD []

/-- **C18/C19 (result, partial).** If no two path components of the modules of a stretch differ in case only, sorting that
stretch puts its loads in order (no load is less than an earlier one), loads of the same module keep their relative order,
and sorting again changes nothing. -/
theorem C18_sorted_partial (l : List Expr)
    (h : ∀ x ∈ l, ∀ y ∈ l, LabelsNoClash (moduleOf x) (moduleOf y)) :
    Sorted loadLess (sortBy loadLess l) ∧
    (∀ m, (sortBy loadLess l).filter (fun x => moduleOf x == m) = l.filter (fun x => moduleOf x == m)) ∧
    sortBy loadLess (sortBy loadLess l) = sortBy loadLess l := by
  have hsw : StrictWeak (fun x y : Expr => idealLess (moduleOf x) (moduleOf y)) :=
    ⟨fun a => idealLess_strictWeak.irrefl _, fun a b c => idealLess_strictWeak.trans _ _ _,
      fun a b c => idealLess_strictWeak.incomp _ _ _⟩
  have he : sortBy loadLess l = sortBy (fun x y : Expr => idealLess (moduleOf x) (moduleOf y)) l :=
    sortBy_congr l (fun x hx y hy => compare_ideal _ _ (h x hx y hy))
  have hs : Sorted loadLess (sortBy loadLess l) := by
    have := sortBy_sorted hsw l
    rw [← he] at this
    refine List.Pairwise.imp_of_mem ?_ this
    intro a b ha hb hab
    have ha' : a ∈ l := (sortBy_perm _ l).mem_iff.mp ha
    have hb' : b ∈ l := (sortBy_perm _ l).mem_iff.mp hb
    exact (compare_ideal _ _ (h b hb' a ha')).trans hab
  refine ⟨hs, ?_, sortBy_of_sorted _ hs⟩
  intro m
  apply sortBy_filter
  intro a b hab hpa
  simp only [beq_iff_eq] at hpa
  simp only [beq_eq_false_iff_ne]
  intro hpb
  have : compareLoadLabels (moduleOf a) (moduleOf b) = true := hab
  rw [hpa, hpb, (C19_irreflexive_asymmetric m m).1] at this
  cases this

/-- a stretch that meets the hypotheses and is reordered -/
example : (∀ x ∈ [Expr.load {} {} { value := b!":z" } [] [] {} false, .load {} {} { value := b!"//a" } [] [] {} false],
      ∀ y ∈ [Expr.load {} {} { value := b!":z" } [] [] {} false, .load {} {} { value := b!"//a" } [] [] {} false],
        LabelsNoClash (moduleOf x) (moduleOf y)) ∧
    sortBy loadLess [Expr.load {} {} { value := b!":z" } [] [] {} false, .load {} {} { value := b!"//a" } [] [] {} false] =
      [.load {} {} { value := b!"//a" } [] [] {} false, .load {} {} { value := b!":z" } [] [] {} false] := by
  refine ⟨?_, rfl⟩
  intro x hx y hy
  simp only [List.mem_cons, List.not_mem_nil, or_false] at hx hy
  rcases hx with rfl | rfl <;> rcases hy with rfl | rfl <;>
    simp only [moduleOf, loadModule, Option.getD_some] <;> unfold LabelsNoClash NoClash <;> decide

end Verif.Props.LoadSort
