import Verif.Proofs.SortStrings
/- Lemmas about the chunk loop of string-list sorting. -/
namespace Verif.Rewrite
open Verif Verif.Syntax Verif.Walk

/-- the literal without its whole-line comments -/
def clear (x : StringN) : StringN := setBefore [] x

/-- What sorting one chunk has to achieve. -/
structure ChunkResult (strip : Bool) (c c' : List StringN) : Prop where
  /-- strictly increasing: sorted and without duplicates -/
  strict : c'.Pairwise fun a b => valLess strip a.value b.value = true
  /-- no value is lost or invented -/
  values : ∀ v, v ∈ c'.map (·.value) ↔ v ∈ c.map (·.value)
  /-- each literal kept is, apart from whole-line comments, the first one with its value -/
  firsts : ∀ x ∈ c', ∃ i : Nat, (c[i]?).map clear = some (clear x) ∧ ∀ j (y : StringN), j < i → c[j]? = some y → y.value ≠ x.value
  /-- the whole-line comments above the chunk stay above it -/
  head_before : c'.head?.map (·.comments.before) = c.head?.map (·.comments.before)
  /-- and no others appear -/
  tail_before : ∀ x ∈ c'.tail, x.comments.before = []

/-- a run of literals of which only the first may have whole-line comments -/
def IsChunk (c : List StringN) : Prop := c ≠ [] ∧ ∀ x ∈ c.tail, x.comments.before = []

theorem uniqFrom_first {strip : Bool} (last : Bytes) (l : List SortKey) (h : Sorted keyLess l)
    (hk : ∀ k ∈ l, KeyOK strip k) (hl : ∀ k ∈ l, last = k.value ∨ valLess strip last k.value = true) :
    ∀ k ∈ uniqFrom last l, ∀ k' ∈ l, k'.value = k.value → k.original ≤ k'.original := by
  induction l generalizing last with
  | nil => simp [uniqFrom]
  | cons a l ih =>
    have hv := valSorted_of_sorted hk h
    unfold Sorted at h
    unfold ValSorted at hv
    rw [List.pairwise_cons] at h hv
    have hk2 : ∀ k ∈ l, KeyOK strip k := fun k hx => hk k (by simp [hx])
    intro k hkm k' hk'm e
    rw [uniqFrom] at hkm
    split at hkm
    · rename_i ea
      rcases List.mem_cons.mp hk'm with rfl | hk'm
      · have := (uniqFrom_strict last l hv.2 (fun x hx => hl x (by simp [hx]))).2 k hkm
        rw [← e, ea, (valLess_total strip).irrefl] at this; cases this
      · exact ih last h.2 hk2 (fun x hx => hl x (by simp [hx])) k hkm k' hk'm e
    · rcases List.mem_cons.mp hkm with rfl | hkm
      · rcases List.mem_cons.mp hk'm with rfl | hk'm
        · exact Nat.le_refl _
        · have := h.1 k' hk'm
          rw [keyLess_val (hk2 k' hk'm) (hk k (by simp)), if_pos e] at this
          simp at this; exact this
      · rcases List.mem_cons.mp hk'm with rfl | hk'm
        · have := (uniqFrom_strict k'.value l hv.2 hv.1).2 k hkm
          rw [← e, (valLess_total strip).irrefl] at this; cases this
        · exact ih a.value h.2 hk2 hv.1 k hkm k' hk'm e

theorem uniq_first {strip : Bool} (l : List SortKey) (h : Sorted keyLess l) (hk : ∀ k ∈ l, KeyOK strip k) :
    ∀ k ∈ uniq l, ∀ k' ∈ l, k'.value = k.value → k.original ≤ k'.original := by
  cases l with
  | nil => simp [uniq]
  | cons a l =>
    have hv := valSorted_of_sorted hk h
    have hs := h
    unfold Sorted at h
    unfold ValSorted at hv
    rw [List.pairwise_cons] at h hv
    intro k hkm k' hk'm e
    rw [uniq] at hkm
    rcases List.mem_cons.mp hkm with rfl | hkm
    · rcases List.mem_cons.mp hk'm with rfl | hk'm
      · exact Nat.le_refl _
      · have := h.1 k' hk'm
        rw [keyLess_val (hk k' (by simp [hk'm])) (hk k (by simp)), if_pos e] at this
        simp at this; exact this
    · rcases List.mem_cons.mp hk'm with rfl | hk'm
      · have := (uniqFrom_strict k'.value l hv.2 hv.1).2 k hkm
        rw [← e, (valLess_total strip).irrefl] at this; cases this
      · exact uniqFrom_first a.value l h.2 (fun k hx => hk k (by simp [hx])) hv.1 k hkm k' hk'm e

theorem mem_mkKeys {strip : Bool} {chunk : List StringN} {k : SortKey} :
    k ∈ mkKeys strip chunk ↔ ∃ x, chunk[k.original]? = some x ∧ k = makeSortKey strip k.original x := by
  unfold mkKeys
  rw [List.mem_mapIdx]
  constructor
  · rintro ⟨i, hi, rfl⟩
    exact ⟨chunk[i], by simp [makeSortKey], rfl⟩
  · rintro ⟨x, hx, hk⟩
    obtain ⟨hi, rfl⟩ := List.getElem?_eq_some_iff.mp hx
    exact ⟨k.original, hi, hk.symm⟩

/-- keys after clearing the first one: up to whole-line comments the literal at the recorded index -/
theorem mem_clearFirst {strip : Bool} {chunk : List StringN} {k : SortKey}
    (h : k ∈ clearFirst (mkKeys strip chunk)) :
    ∃ x, chunk[k.original]? = some x ∧ clear k.x = clear x ∧ k.value = x.value ∧ k.x.value = x.value := by
  have hm : ∃ k0 ∈ mkKeys strip chunk, k0.original = k.original ∧ k0.value = k.value ∧ clear k0.x = clear k.x := by
    cases hK : mkKeys strip chunk with
    | nil => rw [hK] at h; simp [clearFirst] at h
    | cons a t =>
      rw [hK] at h
      simp only [clearFirst, List.mem_cons] at h
      rcases h with rfl | h
      · exact ⟨a, by simp, rfl, rfl, rfl⟩
      · exact ⟨k, by simp [h], rfl, rfl, rfl⟩
  obtain ⟨k0, hk0, ho, hv, hc⟩ := hm
  obtain ⟨x, hx, hkx⟩ := mem_mkKeys.mp hk0
  refine ⟨x, by rw [← ho]; exact hx, ?_, ?_, ?_⟩
  · rw [← hc, hkx]; rfl
  · rw [← hv, hkx]; rfl
  · have : (clear k.x).value = (clear k0.x).value := by rw [hc]
    have h2 : k.x.value = k0.x.value := this
    rw [h2, hkx]; rfl

theorem clearFirst_before {strip : Bool} {chunk : List StringN} (hc : IsChunk chunk) {k : SortKey}
    (h : k ∈ clearFirst (mkKeys strip chunk)) : k.x.comments.before = [] := by
  obtain ⟨hne, ht⟩ := hc
  cases chunk with
  | nil => exact absurd rfl hne
  | cons a t =>
    have : mkKeys strip (a :: t) = makeSortKey strip 0 a :: t.mapIdx (fun i x => makeSortKey strip (i+1) x) := by
      simp [mkKeys, List.mapIdx_cons]
    rw [this] at h
    simp only [clearFirst, List.mem_cons] at h
    rcases h with rfl | h
    · rfl
    · rw [List.mem_mapIdx] at h
      obtain ⟨i, hi, rfl⟩ := h
      exact ht t[i] (by simp)

theorem clearFirst_length (keys : List SortKey) : (clearFirst keys).length = keys.length := by
  cases keys <;> rfl

theorem sortChunk_result {srt : List SortKey → List SortKey} (hs : Sorts keyLess srt) (strip : Bool)
    (chunk : List StringN) (hc : IsChunk chunk) : ChunkResult strip chunk (sortChunk srt strip chunk) := by
  rw [sortChunk_unfold]
  cases hcond : (isSorted keyLess (mkKeys strip chunk) && isUniq (mkKeys strip chunk)) with
  | true =>
    simp only [if_true]
    rw [Bool.and_eq_true] at hcond
    have hsorted := (isSorted_iff keyLess_strictWeak _).mp hcond.1
    have hstrict := isUniq_strict _ (valSorted_of_sorted (mkKeys_keyOK strip chunk) hsorted) hcond.2
    have hst : chunk.Pairwise fun a b => valLess strip a.value b.value = true := by
      have h2 : (chunk.map (·.value)).Pairwise (fun a b => valLess strip a b = true) := by
        rw [← mkKeys_value strip chunk, List.pairwise_map]; exact hstrict
      rw [List.pairwise_map] at h2; exact h2
    refine ⟨hst, fun v => Iff.rfl, ?_, rfl, hc.2⟩
    intro x hx
    obtain ⟨i, hi, rfl⟩ := List.getElem_of_mem hx
    refine ⟨i, by simp [List.getElem?_eq_getElem hi], ?_⟩
    intro j y hj hy
    obtain ⟨hj', rfl⟩ := List.getElem?_eq_some_iff.mp hy
    have := List.pairwise_iff_getElem.mp hst j i hj' hi hj
    intro e
    rw [e, (valLess_total strip).irrefl] at this; cases this
  | false =>
    simp only [Bool.false_eq_true, if_false]
    have hsp := hs (clearFirst (mkKeys strip chunk))
    have hok : ∀ k ∈ srt (clearFirst (mkKeys strip chunk)), KeyOK strip k := fun k hk =>
      clearFirst_keyOK (mkKeys_keyOK strip chunk) k (hsp.1.mem_iff.mp hk)
    have hstrict := uniq_strict _ (valSorted_of_sorted hok hsp.2)
    have hfirst := uniq_first (strip := strip) _ hsp.2 hok
    have hvals : ∀ v, v ∈ (uniq (srt (clearFirst (mkKeys strip chunk)))).map (·.value) ↔ v ∈ chunk.map (·.value) := by
      intro v
      rw [uniq_values, (hsp.1.map _).mem_iff, clearFirst_value, mkKeys_value]
    have hmem : ∀ k ∈ uniq (srt (clearFirst (mkKeys strip chunk))), k ∈ clearFirst (mkKeys strip chunk) :=
      fun k hk => hsp.1.mem_iff.mp ((uniq_sublist _).subset hk)
    have hfirsts : ∀ k ∈ uniq (srt (clearFirst (mkKeys strip chunk))), ∀ z : StringN, clear z = clear k.x →
        ∃ i : Nat, (chunk[i]?).map clear = some (clear z) ∧ ∀ j (y : StringN), j < i → chunk[j]? = some y → y.value ≠ z.value := by
      intro k hk z hz
      obtain ⟨x, hx, hcx, hvx, hxx⟩ := mem_clearFirst (hmem k hk)
      refine ⟨k.original, by rw [hx, hz, hcx]; rfl, ?_⟩
      intro j y hj hy e
      -- the key of y
      have hjm : ∃ k' ∈ clearFirst (mkKeys strip chunk), k'.original = j ∧ k'.value = y.value := by
        have : makeSortKey strip j y ∈ mkKeys strip chunk := mem_mkKeys.mpr ⟨y, hy, rfl⟩
        cases hK : mkKeys strip chunk with
        | nil => rw [hK] at this; cases this
        | cons a t =>
          rw [hK] at this
          rcases List.mem_cons.mp this with ha | ht
          · exact ⟨{ a with x := setBefore [] a.x }, by simp [clearFirst], by rw [← ha]; rfl, by rw [← ha]; rfl⟩
          · exact ⟨makeSortKey strip j y, by simp [clearFirst, ht], rfl, rfl⟩
      obtain ⟨k', hk', ho', hv'⟩ := hjm
      have := hfirst k hk k' (hsp.1.mem_iff.mpr hk') (by
        rw [hv', e, hvx, ← hxx]
        have : (clear z).value = (clear k.x).value := by rw [hz]
        exact this)
      omega
    cases hU : uniq (srt (clearFirst (mkKeys strip chunk))) with
    | nil =>
      rw [hU] at hvals
      obtain ⟨hne, -⟩ := hc
      cases chunk with
      | nil => exact absurd rfl hne
      | cons a t => have := (hvals a.value).mpr (by simp); simp at this
    | cons k ks =>
      rw [hU] at hvals hstrict hfirsts hmem
      have hv : ∀ q ∈ k :: ks, q.x.value = q.value := fun q hq =>
        (clearFirst_keyOK (mkKeys_keyOK strip chunk) q (hmem q hq)).2.2
      refine ⟨?_, ?_, ?_, ?_, ?_⟩
      · have : (k :: ks).map (·.value)
            = (setBefore (headBefore chunk) k.x :: ks.map (·.x)).map (·.value) := by
          simp only [List.map_cons, List.map_map]
          congr 1
          · exact (hv k (by simp)).symm
          · apply List.map_congr_left
            intro q hq
            exact (hv q (by simp [hq])).symm
        have h2 : ((k :: ks).map (·.value)).Pairwise (fun a b => valLess strip a b = true) := by
          rw [List.pairwise_map]; exact hstrict
        rw [this, List.pairwise_map] at h2
        exact h2
      · intro v
        rw [← hvals v]
        simp only [List.map_cons, List.mem_cons, List.map_map, List.mem_map, Function.comp]
        have e1 : (setBefore (headBefore chunk) k.x).value = k.value :=
          hv k (by simp)
        rw [e1]
        constructor
        · rintro (h | ⟨q, hq, h⟩)
          · exact Or.inl h
          · exact Or.inr ⟨q, hq, by rw [← h]; exact (hv q (by simp [hq])).symm⟩
        · rintro (h | ⟨q, hq, h⟩)
          · exact Or.inl h
          · exact Or.inr ⟨q, hq, by rw [← h]; exact (hv q (by simp [hq]))⟩
      · intro x hx
        rcases List.mem_cons.mp hx with rfl | hx
        · exact hfirsts k (by simp) _ rfl
        · obtain ⟨q, hq, rfl⟩ := List.mem_map.mp hx
          exact hfirsts q (by simp [hq]) _ rfl
      · obtain ⟨hne, -⟩ := hc
        cases chunk with
        | nil => exact absurd rfl hne
        | cons a t => rfl
      · intro x hx
        simp only [List.tail_cons, List.mem_map] at hx
        obtain ⟨q, hq, rfl⟩ := hx
        exact clearFirst_before hc (hmem q (by simp [hq]))

theorem sortChunk_length_le {srt : List SortKey → List SortKey} (hs : Sorts keyLess srt) (strip : Bool)
    (chunk : List StringN) : (sortChunk srt strip chunk).length ≤ chunk.length := by
  rw [sortChunk_unfold]
  split
  · exact Nat.le_refl _
  · have h1 := (uniq_sublist (srt (clearFirst (mkKeys strip chunk)))).length_le
    rw [(hs _).1.length_eq, clearFirst_length, mkKeys_length] at h1
    split
    · exact Nat.zero_le _
    · rename_i h
      rw [h] at h1
      simp at h1 ⊢; exact h1

theorem spanMembers_spec (l : List Expr) :
    l = (spanMembers l).1.map Expr.string ++ (spanMembers l).2 ∧
    (∀ x ∈ (spanMembers l).1, x.comments.before = []) ∧
    ∀ x t, (spanMembers l).2 = x :: t → chunkMember x = none := by
  induction l with
  | nil => simp [spanMembers]
  | cons x l ih =>
    rw [spanMembers]
    split
    · rename_i s hs
      have hx : x = .string s ∧ s.comments.before = [] := by
        cases x <;> simp [chunkMember] at hs
        exact ⟨by rw [hs.2], by rw [← hs.2]; exact hs.1⟩
      refine ⟨?_, ?_, ih.2.2⟩
      · rw [List.map_cons, List.cons_append, ← ih.1, hx.1]
      · intro y hy
        rcases List.mem_cons.mp hy with rfl | hy
        · exact hx.2
        · exact ih.2.1 y hy
    · rename_i hs
      refine ⟨rfl, by simp, ?_⟩
      intro y t h
      simp only [List.cons.injEq] at h
      rw [← h.1]; exact hs

theorem spanMembers_append (ss : List StringN) (r : List Expr) (h1 : ∀ x ∈ ss, x.comments.before = [])
    (h2 : ∀ x t, r = x :: t → chunkMember x = none) : spanMembers (ss.map Expr.string ++ r) = (ss, r) := by
  induction ss with
  | nil =>
    cases r with
    | nil => rfl
    | cons x t => simp [spanMembers, h2 x t rfl]
  | cons s ss ih =>
    have := ih (fun x hx => h1 x (by simp [hx]))
    simp [spanMembers, chunkMember, h1 s (by simp), this]

theorem sortLoop_string (srt : List SortKey → List SortKey) (strip : Bool) (n : Nat) (s : StringN) (l : List Expr) :
    sortLoop srt strip (n+1) (.string s :: l) =
      ((sortChunk srt strip (s :: (spanMembers l).1)).map Expr.string ++ (spanMembers l).2).take (s :: (spanMembers l).1).length
      ++ sortLoop srt strip n (((sortChunk srt strip (s :: (spanMembers l).1)).map Expr.string ++ (spanMembers l).2).drop (s :: (spanMembers l).1).length) := rfl

theorem sortLoop_other (srt : List SortKey → List SortKey) (strip : Bool) (n : Nat) (x : Expr) (l : List Expr)
    (h : ∀ s, x ≠ .string s) : sortLoop srt strip (n+1) (x :: l) = x :: sortLoop srt strip n l := by
  cases x <;> first | rfl | exact absurd rfl (h _)

theorem isChunk_span (s : StringN) (l : List Expr) : IsChunk (s :: (spanMembers l).1) :=
  ⟨by simp, (spanMembers_spec l).2.1⟩

/-- dropping as many elements as the chunk lost -/
theorem take_drop_chunk (c' : List Expr) (r : List Expr) (m : Nat) (h : c'.length ≤ m) :
    (c' ++ r).take m = c' ++ r.take (m - c'.length) ∧ (c' ++ r).drop m = r.drop (m - c'.length) := by
  constructor
  · rw [List.take_append, List.take_of_length_le h]
  · rw [List.drop_append, List.drop_of_length_le h]; rfl

end Verif.Rewrite
