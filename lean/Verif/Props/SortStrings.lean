import Verif.Proofs.SortChunks
/-
C10-C13: sorting and deduplicating lists of string literals (build.SortStringList and the `listsort` rewrite).
Everything is stated for every sorting algorithm `srt` that keeps `sort.Sort`'s promise (`Sorts keyLess srt`).
-/
namespace Verif.Props.SortStrings
open Verif Verif.Syntax Verif.Walk Verif.Rewrite

/-! ### C10 -/

/-- Specification of the documented order (comment at rewrite.go:726-731): four groups, then the pieces between
`.` and `:` in order, then the whole value. -/
def phase (strip : Bool) (v : Bytes) : Nat :=
  if [c!":"].isPrefixOf v then 1
  else if b!"//".isPrefixOf v then 2
  else if [c!"@"].isPrefixOf v then 3
  else if strip then 2 else 0

def pieces (v : Bytes) : List Bytes := splitAll c!"." (v.map fun c => if c = c!":" then c!"." else c)

/-- **C10**: the comparison is irreflexive, transitive, and total on distinct positions. -/
theorem C10_strict_total_order : TotalBy (fun k : SortKey => k.original) keyLess :=
  ⟨keyLess_total4.irrefl, keyLess_total4.trans, fun a b h =>
    keyLess_total4.total a b (by intro e; simp only [Prod.mk.injEq] at e; exact h e.2.2.2)⟩

/-- **C10**: on literals with different values it is the documented order, whatever their positions; equal values are
ordered by position. -/
theorem C10_documented_order (strip : Bool) (i j : Nat) (x y : StringN) :
    keyLess (makeSortKey strip i x) (makeSortKey strip j y) = true ↔
      phase strip x.value < phase strip y.value ∨
      phase strip x.value = phase strip y.value ∧
        (lexLess strLess (pieces x.value) (pieces y.value) = true ∨
         pieces x.value = pieces y.value ∧
          (strLess x.value y.value = true ∨ x.value = y.value ∧ i < j)) := by
  have hph : ∀ (i : Nat) (x : StringN), (makeSortKey strip i x).phase = phase strip x.value := by
    intro i x
    simp only [makeSortKey, phase, hasPrefix]
    by_cases h1 : [c!":"].isPrefixOf x.value = true
    · simp [h1]
    · by_cases h2 : b!"//".isPrefixOf x.value = true
      · simp [h1, h2]
      · by_cases h3 : [c!"@"].isPrefixOf x.value = true
        · simp [h1, h2, h3]
        · simp only [Bool.not_eq_true] at h1 h2 h3
          simp [h1, h2, h3]
  have hsp : ∀ (i : Nat) (x : StringN), (makeSortKey strip i x).split = pieces x.value := fun _ _ => rfl
  rw [keyLess_eq, hph, hph, hsp, hsp]
  by_cases e1 : phase strip x.value = phase strip y.value
  · by_cases e2 : pieces x.value = pieces y.value
    · by_cases e3 : x.value = y.value
      · simp [makeSortKey, e3, (lexLess_total strLess_total).irrefl, strLess_total.irrefl]
      · simp [makeSortKey, e1, e2, e3, (lexLess_total strLess_total).irrefl]
    · simp [e1, e2]
  · simp [e1]

/-- **C10**: the result of sorting does not depend on the sorting algorithm. -/
theorem C10_algorithm_independent {srt srt' : List SortKey → List SortKey} (h : Sorts keyLess srt)
    (h' : Sorts keyLess srt') (strip : Bool) (l : List Expr) :
    sortStringExprsWith srt strip l = sortStringExprsWith srt' strip l := by
  unfold sortStringExprsWith
  rw [sortLoop_srt h h']

/-- a sorting algorithm exists -/
example : Sorts keyLess (sortBy keyLess) := sortBy_sorts keyLess_strictWeak

/-- groups come in the documented order -/
example : keyLess (makeSortKey false 9 { value := b!"zz" }) (makeSortKey false 0 { value := b!":a" }) = true ∧
    keyLess (makeSortKey false 9 { value := b!":zz" }) (makeSortKey false 0 { value := b!"//a" }) = true ∧
    keyLess (makeSortKey false 9 { value := b!"//zz" }) (makeSortKey false 0 { value := b!"@a" }) = true := by
  decide

/-! ### C11 -/

/-- `l'` is `l` with some runs of literals sorted in place and everything else untouched. A run begins anywhere but
never extends over a non-literal or over a literal that carries whole-line comments. -/
inductive Rearranged (strip : Bool) : List Expr → List Expr → Prop
  | nil : Rearranged strip [] []
  | keep (x : Expr) {l l' : List Expr} : Rearranged strip l l' → Rearranged strip (x :: l) (x :: l')
  | chunk (c c' : List StringN) {l l' : List Expr} : IsChunk c → ChunkResult strip c c' → Rearranged strip l l' →
      Rearranged strip (c.map .string ++ l) (c'.map .string ++ l')

/-- `l'` is `l` with every maximal run of literals sorted in place. -/
inductive SortedAll (strip : Bool) : List Expr → List Expr → Prop
  | nil : SortedAll strip [] []
  | other (x : Expr) {l l' : List Expr} : (∀ s, x ≠ .string s) → SortedAll strip l l' →
      SortedAll strip (x :: l) (x :: l')
  | chunk (c c' : List StringN) {l l' : List Expr} : IsChunk c →
      (∀ s t, l = .string s :: t → s.comments.before ≠ []) →
      ChunkResult strip c c' → SortedAll strip l l' →
      SortedAll strip (c.map .string ++ l) (c'.map .string ++ l')

theorem Rearranged.refl (strip : Bool) : ∀ l, Rearranged strip l l
  | [] => .nil
  | x :: l => .keep x (Rearranged.refl strip l)

theorem Rearranged.keeps (strip : Bool) (a : List Expr) {l l' : List Expr} (h : Rearranged strip l l') :
    Rearranged strip (a ++ l) (a ++ l') := by
  induction a with
  | nil => exact h
  | cons x a ih => exact .keep x ih

theorem sortLoop_rearranged {srt : List SortKey → List SortKey} (hs : Sorts keyLess srt) (strip : Bool) :
    ∀ n l, Rearranged strip l (sortLoop srt strip n l) := by
  intro n
  induction n with
  | zero => intro l; exact Rearranged.refl strip l
  | succ n ih =>
    intro l
    cases l with
    | nil => exact .nil
    | cons x l =>
      by_cases hx : ∃ s, x = .string s
      · obtain ⟨s, rfl⟩ := hx
        rw [sortLoop_string]
        have hle := sortChunk_length_le hs strip (s :: (spanMembers l).1)
        have htd := take_drop_chunk ((sortChunk srt strip (s :: (spanMembers l).1)).map Expr.string)
          (spanMembers l).2 (s :: (spanMembers l).1).length (by rw [List.length_map]; exact hle)
        rw [htd.1, htd.2, List.append_assoc]
        have hl : Expr.string s :: l = (s :: (spanMembers l).1).map Expr.string ++
            ((spanMembers l).2.take ((s :: (spanMembers l).1).length - ((sortChunk srt strip (s :: (spanMembers l).1)).map Expr.string).length)
            ++ (spanMembers l).2.drop ((s :: (spanMembers l).1).length - ((sortChunk srt strip (s :: (spanMembers l).1)).map Expr.string).length)) := by
          rw [List.take_append_drop]
          simp only [List.map_cons, List.cons_append, List.cons.injEq, true_and]
          exact (spanMembers_spec l).1
        have key := Rearranged.chunk (s :: (spanMembers l).1) _ (isChunk_span s l)
            (sortChunk_result hs strip _ (isChunk_span s l))
            (Rearranged.keeps strip ((spanMembers l).2.take ((s :: (spanMembers l).1).length - ((sortChunk srt strip (s :: (spanMembers l).1)).map Expr.string).length))
              (ih ((spanMembers l).2.drop ((s :: (spanMembers l).1).length - ((sortChunk srt strip (s :: (spanMembers l).1)).map Expr.string).length))))
        rw [← hl] at key
        exact key
      · rw [sortLoop_other srt strip n x l (fun s e => hx ⟨s, e⟩)]
        exact .keep x (ih l)

/-- **C11**: sorting rearranges runs of literals in place: in each rearranged run every value is kept, exactly once and
in strictly increasing order (the literal kept is the first one with its value), whole-line comments above the run stay
above it, and everything else, in particular non-literals and boundaries, stays where it is. -/
theorem C11_rearranges {srt : List SortKey → List SortKey} (hs : Sorts keyLess srt) (strip : Bool) (l : List Expr) :
    Rearranged strip l (sortStringExprsWith srt strip l) := by
  unfold sortStringExprsWith
  split
  · exact Rearranged.refl strip l
  · exact sortLoop_rearranged hs strip _ l

def litValue : Expr → Option Bytes
  | .string s => some s.value
  | _ => none

def isLit : Expr → Bool
  | .string _ => true
  | _ => false

theorem map_string_values (c : List StringN) : (c.map Expr.string).filterMap litValue = c.map (·.value) := by
  rw [List.filterMap_map]
  induction c with
  | nil => rfl
  | cons x c ih => simp [litValue, ih]

theorem map_string_nonlit (c : List StringN) : (c.map Expr.string).filter (fun x => !isLit x) = [] := by
  rw [List.filter_eq_nil_iff]; intro x hx
  obtain ⟨s, _, rfl⟩ := List.mem_map.mp hx
  simp [isLit]

/-- **C11**: no value is lost or invented, and the non-literals are the same, in the same order. -/
theorem C11_values_kept {srt : List SortKey → List SortKey} (hs : Sorts keyLess srt) (strip : Bool) (l : List Expr) :
    (∀ v, v ∈ (sortStringExprsWith srt strip l).filterMap litValue ↔ v ∈ l.filterMap litValue) ∧
    (sortStringExprsWith srt strip l).filter (fun x => !isLit x) = l.filter (fun x => !isLit x) := by
  have h := C11_rearranges hs strip l
  generalize sortStringExprsWith srt strip l = l' at h
  induction h with
  | nil => simp
  | keep x _ ih =>
    refine ⟨?_, ?_⟩
    · intro v
      rw [List.filterMap_cons, List.filterMap_cons]
      split
      · exact ih.1 v
      · rw [List.mem_cons, List.mem_cons, ih.1 v]
    · rw [List.filter_cons, List.filter_cons, ih.2]
  | chunk c c' _ hr _ ih =>
    refine ⟨?_, ?_⟩
    · intro v
      rw [List.filterMap_append, List.filterMap_append, List.mem_append, List.mem_append, map_string_values,
        map_string_values, hr.values v, ih.1 v]
    · rw [List.filter_append, List.filter_append, map_string_nonlit, map_string_nonlit, ih.2]

theorem Rearranged.length_le {strip : Bool} {l l' : List Expr} (h : Rearranged strip l l') :
    l'.length ≤ l.length := by
  induction h with
  | nil => exact Nat.le_refl _
  | keep x _ ih => simp; exact ih
  | chunk c c' _ hr _ ih =>
    simp only [List.length_append, List.length_map]
    -- c' has distinct values, all among those of c
    have hnd : (c'.map (·.value)).Nodup := by
      have : (c'.map (·.value)).Pairwise (fun a b => valLess strip a b = true) := by
        rw [List.pairwise_map]; exact hr.strict
      refine this.imp ?_
      intro a b hab e
      rw [e, (valLess_total strip).irrefl] at hab; cases hab
    have hsub : c'.map (·.value) ⊆ c.map (·.value) := fun v hv => (hr.values v).mp hv
    have := List.Nodup.length_le_of_subset hnd hsub
    simp only [List.length_map] at this
    omega

theorem sortLoop_length_le {srt : List SortKey → List SortKey} (hs : Sorts keyLess srt) (strip : Bool) (n : Nat)
    (l : List Expr) : (sortLoop srt strip n l).length ≤ l.length :=
  (sortLoop_rearranged hs strip n l).length_le

theorem sortLoop_sortedAll {srt : List SortKey → List SortKey} (hs : Sorts keyLess srt) (strip : Bool) :
    ∀ n l, l.length ≤ n → (sortLoop srt strip n l).length = l.length → SortedAll strip l (sortLoop srt strip n l) := by
  intro n
  induction n with
  | zero => intro l hn _; cases l with
    | nil => exact .nil
    | cons x l => simp at hn
  | succ n ih =>
    intro l hn hlen
    cases l with
    | nil => exact .nil
    | cons x l =>
      by_cases hx : ∃ s, x = .string s
      · obtain ⟨s, rfl⟩ := hx
        rw [sortLoop_string] at hlen ⊢
        have hle := sortChunk_length_le hs strip (s :: (spanMembers l).1)
        have hsp := spanMembers_spec l
        have htd := take_drop_chunk ((sortChunk srt strip (s :: (spanMembers l).1)).map Expr.string)
          (spanMembers l).2 (s :: (spanMembers l).1).length (by rw [List.length_map]; exact hle)
        rw [htd.1, htd.2] at hlen ⊢
        have hll : l.length = (spanMembers l).1.length + (spanMembers l).2.length := by
          have := congrArg List.length hsp.1
          simpa using this
        have hdl := sortLoop_length_le hs strip n ((spanMembers l).2.drop ((s :: (spanMembers l).1).length - ((sortChunk srt strip (s :: (spanMembers l).1)).map Expr.string).length))
        simp only [List.length_append, List.length_map, List.length_take, List.length_cons, List.length_drop] at hlen hdl hle
        have hd0 : (s :: (spanMembers l).1).length - ((sortChunk srt strip (s :: (spanMembers l).1)).map Expr.string).length = 0 := by
          simp only [List.length_map, List.length_cons]
          omega
        have hl : Expr.string s :: l = (s :: (spanMembers l).1).map Expr.string ++ (spanMembers l).2 := by
          simp only [List.map_cons, List.cons_append, List.cons.injEq, true_and]
          exact hsp.1
        rw [hd0]
        simp only [List.take_zero, List.append_nil, List.drop_zero]
        rw [hl]
        refine .chunk _ _ (isChunk_span s l) ?_ (sortChunk_result hs strip _ (isChunk_span s l)) ?_
        · intro s' t e hb
          have := hsp.2.2 _ _ e
          simp [chunkMember, hb] at this
        · refine ih _ ?_ ?_
          · simp at hn; omega
          · simp only [List.length_map, List.length_cons] at hd0
            rw [show ((spanMembers l).1.length + 1 - (sortChunk srt strip (s :: (spanMembers l).fst)).length) = 0 from hd0] at hlen
            simp only [List.drop_zero] at hlen
            omega
      · have hx' : ∀ s, x ≠ .string s := fun s e => hx ⟨s, e⟩
        rw [sortLoop_other srt strip n x l hx'] at hlen ⊢
        exact .other x hx' (ih l (by simpa using hn) (by simpa using hlen))

/-- **C11**, the part about *every* run being sorted. It holds when nothing is dropped, i.e. when no run contains a
duplicate. What is missing (and false, see the witness): lists where a run loses duplicates, because the loop then skips as
many of the following elements as it dropped. -/
theorem C11_every_chunk_sorted_partial {srt : List SortKey → List SortKey} (hs : Sorts keyLess srt) (strip : Bool)
    (l : List Expr) (h : (sortStringExprsWith srt strip l).length = l.length) :
    SortedAll strip l (sortStringExprsWith srt strip l) := by
  unfold sortStringExprsWith at h ⊢
  split
  · rename_i hl
    match l, hl with
    | [], _ => exact .nil
    | [x], _ =>
      by_cases hx : ∃ s, x = .string s
      · obtain ⟨s, rfl⟩ := hx
        have hc : ChunkResult strip [s] [s] :=
          ⟨by simp, by simp, by intro x hx; simp at hx; subst hx; exact ⟨0, by simp⟩, rfl, by simp⟩
        exact SortedAll.chunk [s] [s] ⟨by simp, by simp⟩ (by simp) hc .nil
      · exact .other x (fun s e => hx ⟨s, e⟩) .nil
    | _ :: _ :: _, hl => simp only [List.length_cons] at hl; omega
  · rename_i hl
    rw [if_neg hl] at h
    exact sortLoop_sortedAll hs strip _ l (Nat.le_refl _) h

/-- a list whose values are all different loses nothing, so the hypothesis above is met -/
theorem nodup_keeps_length {srt : List SortKey → List SortKey} (hs : Sorts keyLess srt) (strip : Bool) (l : List Expr)
    (h : (l.filterMap litValue).Nodup) : (sortStringExprsWith srt strip l).length = l.length := by
  have hr := C11_rearranges hs strip l
  have hv := C11_values_kept hs strip l
  apply Nat.le_antisymm hr.length_le
  generalize sortStringExprsWith srt strip l = l' at hr hv
  have hsplit : ∀ l : List Expr, l.length = (l.filterMap litValue).length + (l.filter fun x => !isLit x).length := by
    intro l
    induction l with
    | nil => rfl
    | cons x l ih =>
      have hi : isLit x = (litValue x).isSome := by cases x <;> rfl
      rw [List.filterMap_cons, List.filter_cons, hi, List.length_cons, ih]
      cases litValue x <;> simp <;> omega
  rw [hsplit l, hsplit l', hv.2]
  have := List.Nodup.length_le_of_subset h (fun v hv' => (hv.1 v).mpr hv')
  omega

def lit (v : Bytes) : Expr := .string { value := v }

/-- **C11 (witness)**: with duplicates before a boundary a later run stays unsorted: `["b","b","b",X,"d","c"]` becomes
`["b",X,"d","c"]`. -/
theorem C11_unsorted_witness :
    sortStringExprs false [lit b!"b", lit b!"b", lit b!"b", .ident { name := b!"X" }, lit b!"d", lit b!"c"]
      = [lit b!"b", .ident { name := b!"X" }, lit b!"d", lit b!"c"] := by rfl

/-! ### C12 -/

/-- A sorted chunk stays as it is. -/
theorem sortChunk_of_strict (srt : List SortKey → List SortKey) (strip : Bool) (c : List StringN)
    (h : c.Pairwise fun a b => valLess strip a.value b.value = true) : sortChunk srt strip c = c := by
  have hst : (mkKeys strip c).Pairwise fun a b => valLess strip a.value b.value = true := by
    have h2 : (c.map (·.value)).Pairwise (fun a b => valLess strip a b = true) := by
      rw [List.pairwise_map]; exact h
    rw [← mkKeys_value strip c, List.pairwise_map] at h2; exact h2
  have h1 : isSorted keyLess (mkKeys strip c) = true := by
    rw [isSorted_iff keyLess_strictWeak]
    refine List.Pairwise.imp_of_mem ?_ hst
    intro a b ha hb hab
    rw [keyLess_val (mkKeys_keyOK strip c b hb) (mkKeys_keyOK strip c a ha)]
    have hne : b.value ≠ a.value := by
      intro e; rw [e, (valLess_total strip).irrefl] at hab; cases hab
    rw [if_neg hne]
    exact (valLess_total strip).asymm hab
  have h2 : ∀ l : List SortKey, (l.Pairwise fun a b => valLess strip a.value b.value = true) → isUniq l = true := by
    intro l
    induction l with
    | nil => intro _; rfl
    | cons a l ih =>
      intro hp
      rw [List.pairwise_cons] at hp
      cases l with
      | nil => rfl
      | cons b l =>
        simp only [isUniq, Bool.and_eq_true, bne_iff_ne, ne_eq]
        refine ⟨?_, ih hp.2⟩
        intro e
        have := hp.1 b (by simp)
        rw [e, (valLess_total strip).irrefl] at this; cases this
  rw [sortChunk_unfold, h1, h2 _ hst]; rfl

/-- how the first element of the result looks: a literal with the same whole-line comments, or the same non-literal -/
theorem sortedAll_head {strip : Bool} {l l' : List Expr} (h : SortedAll strip l l')
    (hl : ∀ s t, l = .string s :: t → s.comments.before ≠ []) : ∀ s t, l' = .string s :: t → s.comments.before ≠ [] := by
  intro s t e
  cases h with
  | nil => cases e
  | other x hx _ => simp only [List.cons.injEq] at e; exact absurd e.1 (hx s)
  | chunk c c' hc hm hr hrest =>
    obtain ⟨hne, _⟩ := hc
    cases c with
    | nil => exact absurd rfl hne
    | cons a c =>
      cases c' with
      | nil => have := (hr.values a.value).mpr (by simp); simp at this
      | cons a' c' =>
        have hb := hr.head_before
        simp only [List.head?_cons, Option.map_some, Option.some.injEq] at hb
        simp only [List.map_cons, List.cons_append, List.cons.injEq, Expr.string.injEq] at e
        rw [← e.1, hb]
        exact hl a _ rfl

theorem sortLoop_fix (srt : List SortKey → List SortKey) (strip : Bool) {l l' : List Expr}
    (h : SortedAll strip l l') : ∀ n, sortLoop srt strip n l' = l' := by
  induction h with
  | nil => intro n; cases n <;> rfl
  | other x hx _ ih =>
    intro n
    cases n with
    | zero => rfl
    | succ n => rw [sortLoop_other srt strip n x _ hx, ih]
  | chunk c c' hc hm hr hrest ih =>
    intro n
    cases n with
    | zero => rfl
    | succ n =>
      rename_i l0 l0'
      cases hc' : c' with
      | nil =>
        obtain ⟨hne, _⟩ := hc
        cases c with
        | nil => exact absurd rfl hne
        | cons a c => have := (hr.values a.value).mpr (by simp); rw [hc'] at this; simp at this
      | cons a t =>
        have htb := hr.tail_before
        rw [hc'] at htb
        have hhead := sortedAll_head hrest hm
        rw [List.map_cons, List.cons_append, sortLoop_string]
        have hsp : spanMembers (t.map Expr.string ++ l0') = (t, l0') := by
          apply spanMembers_append
          · exact htb
          · intro x y e
            cases hx : x <;> try rfl
            rename_i s
            have := hhead s y (by rw [e, hx])
            simp [chunkMember, this]
        rw [hsp]
        simp only
        rw [sortChunk_of_strict srt strip (a :: t) (by rw [← hc']; exact hr.strict)]
        have hL : (a :: t).length = ((a :: t).map Expr.string).length := by simp
        rw [hL, List.take_left, List.drop_left, ih]
        rfl

/-- **C12**: sorting twice is sorting once, if the first sort drops nothing (no run contains a duplicate). Missing,
and false (see the witness): lists with duplicates in a run that is not the last one. -/
theorem C12_idempotent_partial {srt : List SortKey → List SortKey} (hs : Sorts keyLess srt) (strip : Bool)
    (l : List Expr) (h : (sortStringExprsWith srt strip l).length = l.length) :
    sortStringExprsWith srt strip (sortStringExprsWith srt strip l) = sortStringExprsWith srt strip l := by
  have := C11_every_chunk_sorted_partial hs strip l h
  generalize sortStringExprsWith srt strip l = l' at *
  unfold sortStringExprsWith
  split
  · rfl
  · exact sortLoop_fix srt strip this _

/-- **C12**: in particular sorting is idempotent on lists of distinct literals. -/
theorem C12_idempotent_distinct {srt : List SortKey → List SortKey} (hs : Sorts keyLess srt) (strip : Bool)
    (l : List Expr) (h : (l.filterMap litValue).Nodup) :
    sortStringExprsWith srt strip (sortStringExprsWith srt strip l) = sortStringExprsWith srt strip l :=
  C12_idempotent_partial hs strip l (nodup_keeps_length hs strip l h)

/-- **C12 (witness)**: with duplicates, sorting twice is not sorting once. -/
theorem C12_not_idempotent_witness :
    let l := [lit b!"b", lit b!"b", lit b!"b", .ident { name := b!"X" }, lit b!"d", lit b!"c"]
    (sortStringExprs false (sortStringExprs false l)).filterMap litValue = [b!"b", b!"c", b!"d"] ∧
    (sortStringExprs false l).filterMap litValue = [b!"b", b!"d", b!"c"] := by decide

example : (([lit b!"b", lit b!"a", .ident { name := b!"X" }, lit b!"d", lit b!"c"]).filterMap litValue).Nodup := by decide

example : (sortStringExprs false [lit b!"b", lit b!"//a", .ident { name := b!"X" }, lit b!"d", lit b!"c"]).filterMap litValue
    = [b!"b", b!"//a", b!"c", b!"d"] := by decide

end Verif.Props.SortStrings
