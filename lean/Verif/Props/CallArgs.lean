import Verif.Proofs.SortStrings
/-
C14: sorting the arguments of a call (`callsort`), for every sorting algorithm.
-/
namespace Verif.Props.CallArgs
open Verif Verif.Syntax Verif.Walk Verif.Rewrite

theorem argLess_eq (a b : NamedArg) : argLess a b =
    if a.priority ≠ b.priority then (fun x y : Int => decide (x < y)) a.priority b.priority
    else if a.name ≠ b.name then strLess a.name b.name
    else (fun x y : Nat => decide (x < y)) a.index b.index := rfl

theorem argLess_total3 : TotalBy (fun k : NamedArg => (k.priority, k.name, k.index)) argLess :=
  TotalBy.lex (k1 := fun k : NamedArg => k.priority) intLess_total
    (TotalBy.lex (k1 := fun k : NamedArg => k.name) strLess_total
      (TotalBy.comap natLess_total (fun k : NamedArg => k.index)))

theorem argLess_strictWeak : StrictWeak argLess := by
  refine argLess_total3.strictWeak ?_
  intro a b c h
  simp only [Prod.mk.injEq] at h
  obtain ⟨h1, h2, h3⟩ := h
  rw [argLess_eq, argLess_eq, argLess_eq, argLess_eq, h1, h2, h3]
  exact ⟨rfl, rfl⟩

/-! ### Specification -/

/-- a keyword argument `name = value` -/
def isKeyword (x : Expr) : Bool := argName x != []

/-- priority of an argument: the table's entry for `rule.arg` if there is one, else that for `arg`, else 0 -/
def priority (prio : Bytes → Option Int) (rule arg : Bytes) : Int :=
  ((prio (rule ++ b!"." ++ arg)).or (prio arg)).getD 0

theorem priority_eq (prio : Bytes → Option Int) (rule arg : Bytes) : ruleNamePriority prio rule arg = priority prio rule arg := by
  unfold ruleNamePriority priority
  cases prio (rule ++ b!"." ++ arg) <;> rfl

/-- documented order of two keyword arguments: by priority, then by name -/
def before (prio : Bytes → Option Int) (rule : Bytes) (x y : Expr) : Prop :=
  priority prio rule (argName x) < priority prio rule (argName y) ∨
  priority prio rule (argName x) = priority prio rule (argName y) ∧
    (strLess (argName x) (argName y) = true ∨ argName x = argName y)

/-! ### Proofs -/

theorem takeWhile_reverse_split {α} (p : α → Bool) (l : List α) :
    ∃ pre, l = pre ++ (l.reverse.takeWhile p).reverse ∧
      (∀ x ∈ (l.reverse.takeWhile p).reverse, p x = true) ∧
      (∀ init x, pre = init ++ [x] → p x = false) ∧
      l.take (l.length - (l.reverse.takeWhile p).reverse.length) = pre := by
  refine ⟨(l.reverse.dropWhile p).reverse, ?_, ?_, ?_, ?_⟩
  · rw [← List.reverse_append, List.takeWhile_append_dropWhile, List.reverse_reverse]
  · intro x hx
    have : ∀ (l : List α) x, x ∈ l.takeWhile p → p x = true := by
      intro l
      induction l with
      | nil => simp
      | cons a l ih =>
        intro x hx
        rw [List.takeWhile_cons] at hx
        split at hx
        · rcases List.mem_cons.mp hx with rfl | hx
          · assumption
          · exact ih x hx
        · cases hx
    exact this _ x (List.mem_reverse.mp hx)
  · intro init x h
    have h2 : l.reverse.dropWhile p = x :: init.reverse := by
      have := congrArg List.reverse h
      simpa using this
    have : ∀ (l : List α) x t, l.dropWhile p = x :: t → p x = false := by
      intro l
      induction l with
      | nil => simp
      | cons a l ih =>
        intro x t hx
        rw [List.dropWhile_cons] at hx
        split at hx
        · exact ih x t hx
        · simp only [List.cons.injEq] at hx
          rw [← hx.1]; simpa using ‹¬ p a = true›
    exact this _ _ _ h2
  · have h1 : l = (l.reverse.dropWhile p).reverse ++ (l.reverse.takeWhile p).reverse := by
      rw [← List.reverse_append, List.takeWhile_append_dropWhile, List.reverse_reverse]
    have hl : l.length - (l.reverse.takeWhile p).reverse.length = (l.reverse.dropWhile p).reverse.length := by
      have := congrArg List.length h1
      rw [List.length_append] at this
      omega
    rw [hl]
    conv => lhs; rw [h1]
    rw [List.take_left' (by simp)]

theorem takeWhile_reverse_of {α} (p : α → Bool) (pre tail : List α) (h1 : ∀ x ∈ tail, p x = true)
    (h2 : ∀ init x, pre = init ++ [x] → p x = false) : ((pre ++ tail).reverse.takeWhile p).reverse = tail := by
  rw [List.reverse_append, List.takeWhile_append_of_pos (by intro a ha; exact h1 a (List.mem_reverse.mp ha))]
  have : pre.reverse.takeWhile p = [] := by
    cases hp : pre.reverse with
    | nil => rfl
    | cons x t =>
      have : pre = t.reverse ++ [x] := by
        have := congrArg List.reverse hp; simpa using this
      rw [List.takeWhile_cons, h2 _ _ this]; rfl
  rw [this, List.append_nil, List.reverse_reverse]

theorem mkArgs_expr (prio : Bytes → Option Int) (rule : Bytes) (tail : List Expr) :
    (mkArgs prio rule tail).map (·.expr) = tail := by
  unfold mkArgs
  apply List.ext_getElem
  · simp
  · intro i h1 h2; simp

/-- well-formed records: priority and name belong to the expression -/
def ArgOK (prio : Bytes → Option Int) (rule : Bytes) (a : NamedArg) : Prop :=
  a.name = argName a.expr ∧ a.priority = priority prio rule a.name

theorem mkArgs_ok (prio : Bytes → Option Int) (rule : Bytes) (tail : List Expr) :
    ∀ a ∈ mkArgs prio rule tail, ArgOK prio rule a := by
  intro a ha
  unfold mkArgs at ha
  rw [List.mem_mapIdx] at ha
  obtain ⟨i, _, rfl⟩ := ha
  exact ⟨rfl, priority_eq ..⟩

theorem mkArgs_index (prio : Bytes → Option Int) (rule : Bytes) (tail : List Expr) :
    (mkArgs prio rule tail).map (·.index) = List.range tail.length := by
  unfold mkArgs
  apply List.ext_getElem
  · simp
  · intro i h1 h2; simp

theorem mkArgs_index_lt (prio : Bytes → Option Int) (rule : Bytes) (tail : List Expr) :
    (mkArgs prio rule tail).Pairwise fun a b => a.index < b.index := by
  have h : ((mkArgs prio rule tail).map (·.index)).Pairwise (· < ·) := by
    rw [mkArgs_index]; exact List.pairwise_lt_range
  rw [List.pairwise_map] at h; exact h

theorem noties {args : List NamedArg} (h : args.Pairwise fun a b => a.index < b.index) :
    ∀ a ∈ args, ∀ b ∈ args, argLess a b = false → argLess b a = false → a = b := by
  intro a ha b hb h1 h2
  have e : a.index = b.index := by
    apply Classical.byContradiction
    intro e
    rcases argLess_total3.total a b (by intro x; simp only [Prod.mk.injEq] at x; exact e x.2.2) with x | x
    · rw [x] at h1; cases h1
    · rw [x] at h2; cases h2
  induction args with
  | nil => cases ha
  | cons k ks ih =>
    rw [List.pairwise_cons] at h
    rcases List.mem_cons.mp ha with rfl | ha' <;> rcases List.mem_cons.mp hb with rfl | hb'
    · rfl
    · have := h.1 b hb'; omega
    · have := h.1 a ha'; omega
    · exact ih h.2 ha' hb'

theorem sorted_before {prio : Bytes → Option Int} {rule : Bytes} {args : List NamedArg}
    (hok : ∀ a ∈ args, ArgOK prio rule a) (h : Sorted argLess args) :
    (args.map (·.expr)).Pairwise (before prio rule) := by
  rw [List.pairwise_map]
  refine List.Pairwise.imp_of_mem ?_ h
  intro a b ha hb hab
  obtain ⟨ha1, ha2⟩ := hok a ha
  obtain ⟨hb1, hb2⟩ := hok b hb
  unfold before
  rw [← ha1, ← hb1, ← ha2, ← hb2]
  rw [argLess_eq] at hab
  by_cases e1 : b.priority = a.priority
  · right
    refine ⟨e1.symm, ?_⟩
    by_cases e2 : b.name = a.name
    · exact Or.inr e2.symm
    · simp only [e1, e2, ne_eq, not_true, if_false, not_false_iff, if_true] at hab
      rcases strLess_total.total a.name b.name (fun e => e2 e.symm) with h | h
      · exact Or.inl h
      · rw [h] at hab; cases hab
  · left
    simp only [e1, ne_eq, not_false_iff, if_true, decide_eq_false_iff_not] at hab
    omega

theorem sorted_stable {prio : Bytes → Option Int} {rule : Bytes} {tail : List Expr} {s : List NamedArg}
    (h : SortedPerm argLess (mkArgs prio rule tail) s) (name : Bytes) :
    (s.map (·.expr)).filter (fun x => argName x == name) = tail.filter (fun x => argName x == name) := by
  have hok : ∀ a ∈ s, ArgOK prio rule a := fun a ha => mkArgs_ok prio rule tail a (h.1.mem_iff.mp ha)
  have conv1 : (s.map (·.expr)).filter (fun x => argName x == name) = (s.filter fun a => a.name == name).map (·.expr) := by
    rw [List.filter_map]
    congr 1
    apply List.filter_congr
    intro a ha
    simp only [Function.comp]; rw [(hok a ha).1]
  have conv2 : tail.filter (fun x => argName x == name)
      = ((mkArgs prio rule tail).filter fun a => a.name == name).map (·.expr) := by
    conv => lhs; rw [← mkArgs_expr prio rule tail]
    rw [List.filter_map]
    congr 1
    apply List.filter_congr
    intro a ha
    simp only [Function.comp]; rw [(mkArgs_ok prio rule tail a ha).1]
  rw [conv1, conv2]
  congr 1
  -- both are sorted permutations of the same list
  have hp : (s.filter fun a => a.name == name).Perm ((mkArgs prio rule tail).filter fun a => a.name == name) :=
    h.1.filter _
  have hs1 : Sorted argLess (s.filter fun a => a.name == name) := h.2.sublist List.filter_sublist
  have hs2 : Sorted argLess ((mkArgs prio rule tail).filter fun a => a.name == name) := by
    have := (mkArgs_index_lt prio rule tail).sublist (List.filter_sublist (p := fun a => a.name == name))
    refine List.Pairwise.imp_of_mem ?_ this
    intro a b ha hb hab
    rw [List.mem_filter] at ha hb
    have hn : a.name = b.name := (beq_iff_eq.mp ha.2).trans (beq_iff_eq.mp hb.2).symm
    have hpr : a.priority = b.priority := by
      rw [(mkArgs_ok prio rule tail a ha.1).2, (mkArgs_ok prio rule tail b hb.1).2, hn]
    rw [argLess_eq]
    simp [hn, hpr]
    omega
  refine sortedPerm_unique (l := (mkArgs prio rule tail).filter fun a => a.name == name) ?_ ⟨hp, hs1⟩ ⟨List.Perm.refl _, hs2⟩
  exact noties ((mkArgs_index_lt prio rule tail).sublist List.filter_sublist)

theorem mkArgs_sorted_of_before {prio : Bytes → Option Int} {rule : Bytes} {tail : List Expr}
    (h : tail.Pairwise (before prio rule)) : Sorted argLess (mkArgs prio rule tail) := by
  unfold Sorted
  rw [List.pairwise_iff_getElem] at h ⊢
  intro i j hi hj hij
  have hi' : i < tail.length := by simpa [mkArgs] using hi
  have hj' : j < tail.length := by simpa [mkArgs] using hj
  have := h i j hi' hj' hij
  simp only [mkArgs, List.getElem_mapIdx]
  rw [argLess_eq]
  simp only
  unfold before at this
  simp only [priority_eq]
  rcases this with h1 | ⟨h1, h2⟩
  · rw [if_pos (by omega)]
    simp; omega
  · rw [if_neg (by omega)]
    by_cases hn : argName tail[j] = argName tail[i]
    · rw [if_neg (by simp [hn])]; simp; omega
    · rw [if_pos hn]
      rcases h2 with h2 | h2
      · exact strLess_total.asymm h2
      · exact absurd h2.symm hn

/-- What argument sorting has to achieve. -/
structure SortedCall (prio : Bytes → Option Int) (rule : Bytes) (pre tail tail' : List Expr) : Prop where
  /-- the tail consists of keyword arguments -/
  keywords : ∀ x ∈ tail, isKeyword x = true
  /-- and it is the longest such tail -/
  maximal : ∀ init x, pre = init ++ [x] → isKeyword x = false
  /-- the same arguments -/
  perm : tail'.Perm tail
  /-- in the documented order -/
  ordered : tail'.Pairwise (before prio rule)
  /-- arguments of the same name keep their order -/
  stable : ∀ name, tail'.filter (fun x => argName x == name) = tail.filter (fun x => argName x == name)

/-- **C14**: sorting call arguments permutes only the longest trailing run of keyword arguments, into the order by
priority and name, keeping repeated names in order. -/
theorem C14_sorts_trailing_keywords {srt : List NamedArg → List NamedArg} (hs : Sorts argLess srt)
    (prio : Bytes → Option Int) (rule : Bytes) (l : List Expr) :
    ∃ pre tail tail', l = pre ++ tail ∧ sortArgsWith srt prio rule l = pre ++ tail' ∧
      SortedCall prio rule pre tail tail' := by
  obtain ⟨pre, h1, h2, h3, h4⟩ := takeWhile_reverse_split isKeyword l
  refine ⟨pre, namedTail l, ?_⟩
  unfold sortArgsWith
  simp only
  cases hc : isSorted argLess (mkArgs prio rule (namedTail l)) with
  | true =>
    refine ⟨namedTail l, h1, h1, h2, h3, List.Perm.refl _, ?_, fun _ => rfl⟩
    have := sorted_before (mkArgs_ok prio rule (namedTail l)) ((isSorted_iff argLess_strictWeak _).mp hc)
    rwa [mkArgs_expr] at this
  | false =>
    have hsp := hs (mkArgs prio rule (namedTail l))
    refine ⟨(srt (mkArgs prio rule (namedTail l))).map (·.expr), h1, ?_, h2, h3, ?_, ?_, sorted_stable hsp⟩
    · simp only [Bool.false_eq_true, if_false]
      congr 1
    · have := hsp.1.map (·.expr)
      rwa [mkArgs_expr] at this
    · exact sorted_before (fun a ha => mkArgs_ok prio rule _ a (hsp.1.mem_iff.mp ha)) hsp.2

/-- **C14**: the result does not depend on the sorting algorithm. -/
theorem C14_algorithm_independent {srt srt' : List NamedArg → List NamedArg} (h : Sorts argLess srt)
    (h' : Sorts argLess srt') (prio : Bytes → Option Int) (rule : Bytes) (l : List Expr) :
    sortArgsWith srt prio rule l = sortArgsWith srt' prio rule l := by
  unfold sortArgsWith
  simp only
  rw [sortedPerm_unique (noties (mkArgs_index_lt prio rule (namedTail l))) (h _) (h' _)]

/-- **C14**: sorting is idempotent, even if the second run uses another sorting algorithm. -/
theorem C14_idempotent {srt srt' : List NamedArg → List NamedArg} (h : Sorts argLess srt)
    (prio : Bytes → Option Int) (rule : Bytes) (l : List Expr) :
    sortArgsWith srt' prio rule (sortArgsWith srt prio rule l) = sortArgsWith srt prio rule l := by
  obtain ⟨pre, tail, tail', _, h2, h3⟩ := C14_sorts_trailing_keywords h prio rule l
  rw [h2]
  have ht : namedTail (pre ++ tail') = tail' :=
    takeWhile_reverse_of isKeyword pre tail' (fun x hx => h3.keywords x (h3.perm.mem_iff.mp hx)) h3.maximal
  unfold sortArgsWith
  simp only [ht]
  rw [(isSorted_iff argLess_strictWeak _).mpr (mkArgs_sorted_of_before h3.ordered)]
  rfl

def kw (n v : Bytes) : Expr := .assign {} (.ident { name := n }) {} b!"=" false (.string { value := v })

/-- positional arguments stay, `name` goes first, repeated names keep their order -/
example : (sortArgs (fun s => if s = b!"name" then some (-99) else none) b!"r"
      [.string { value := b!"p" }, kw b!"b" b!"1", kw b!"a" b!"2", kw b!"b" b!"0", kw b!"name" b!"n"])
    = [.string { value := b!"p" }, kw b!"name" b!"n", kw b!"a" b!"2", kw b!"b" b!"1", kw b!"b" b!"0"] := by rfl

example : Sorts argLess (sortBy argLess) := sortBy_sorts argLess_strictWeak

end Verif.Props.CallArgs
