import Verif.Model.Labels
set_option linter.unusedSimpArgs false
namespace Verif.Labels
open Verif

theorem split2_none (sep : UInt8) (l : Bytes) (h : sep ∉ l) : split2 sep l = (l, none) := by
  induction l with
  | nil => rfl
  | cons c l ih =>
    simp at h
    simp [split2, Ne.symm h.1, ih h.2]

theorem split2_some (sep : UInt8) (a b : Bytes) (h : sep ∉ a) : split2 sep (a ++ sep :: b) = (a, some b) := by
  induction a with
  | nil => simp [split2]
  | cons c l ih =>
    simp at h
    simp [split2, Ne.symm h.1, ih h.2]

theorem split2_fst (sep : UInt8) (l : Bytes) : sep ∉ (split2 sep l).1 := by
  induction l with
  | nil => simp [split2]
  | cons c l ih =>
    simp only [split2]
    split
    · simp
    · rename_i h; simp [ih, Ne.symm h]

theorem split2_eq (sep : UInt8) (l : Bytes) :
    (∃ b, split2 sep l = ((split2 sep l).1, some b) ∧ l = (split2 sep l).1 ++ sep :: b) ∨
    (split2 sep l = (l, none) ∧ sep ∉ l) := by
  induction l with
  | nil => right; simp [split2]
  | cons c l ih =>
    simp only [split2]
    split
    · left; rename_i h; exact ⟨l, by simp, by simp [h]⟩
    · rename_i h
      rcases ih with ⟨b, h1, h2⟩ | ⟨h1, h2⟩
      · left
        refine ⟨b, by rw [h1], ?_⟩
        show c :: l = c :: ((split2 sep l).1 ++ sep :: b)
        rw [← h2]
      · right; exact ⟨by simp [h1], by simp [h2, Ne.symm h]⟩

theorem trimLeft_head (c : UInt8) (l : Bytes) : (trimLeft c l).head? ≠ some c := by
  induction l with
  | nil => simp [trimLeft]
  | cons x l ih =>
    simp only [trimLeft] at ih ⊢
    by_cases h : x = c
    · simp [List.dropWhile, h]; exact ih
    · have : (x == c) = false := by simpa using h
      simp [List.dropWhile, this, h]

theorem trimLeft_of_head (c : UInt8) (l : Bytes) (h : l.head? ≠ some c) : trimLeft c l = l := by
  cases l with
  | nil => rfl
  | cons x l =>
    have : (x == c) = false := by simpa using h
    simp [trimLeft, List.dropWhile, this]

theorem trimLeft_nil_iff (c : UInt8) (l : Bytes) : trimLeft c l = [] ↔ ∀ x ∈ l, x = c := by
  induction l with
  | nil => simp [trimLeft]
  | cons x l ih =>
    by_cases h : x = c
    · subst h; simp [trimLeft, List.dropWhile] at ih ⊢; exact ih
    · have : (x == c) = false := by simpa using h
      simp [trimLeft, List.dropWhile, this, h]

theorem trimLeft_length (c : UInt8) (l : Bytes) : trimLeft c l = l ∨ (trimLeft c l).length < l.length := by
  cases l with
  | nil => left; rfl
  | cons x l =>
    by_cases h : x = c
    · right; subst h
      have : trimLeft x (x :: l) = trimLeft x l := by simp [trimLeft, List.dropWhile]
      rw [this]
      have : (trimLeft x l).length ≤ l.length := (List.dropWhile_sublist _).length_le
      simp; omega
    · left; have : (x == c) = false := by simpa using h
      simp [trimLeft, List.dropWhile, this]

theorem pathBase_ne_nil (p : Bytes) : pathBase p ≠ [] := by
  unfold pathBase
  split
  · simp
  · simp only
    split
    · simp
    · assumption

/-- What every parsed label satisfies. -/
structure WF (l : Label) : Prop where
  pkg : c!":" ∉ l.package
  repo : c!"/" ∉ l.repository
  repoAt : l.repository.head? ≠ some c!"@"
  tgt : l.target = [] → l.package = [] ∧ l.repository = []

theorem split_slash (t : Bytes) : c!":" ∉ trimPrefix (split2 c!":" t).1 b!"//" := by
  have h := split2_fst 58 t
  unfold trimPrefix
  split
  · exact fun hm => h (List.mem_of_mem_drop hm)
  · exact h

theorem parseNoRepo_wf (repo target : Bytes) (hr : c!"/" ∉ repo) (hr2 : repo.head? ≠ some c!"@")
    (ht : target ≠ [] ∨ repo = []) : WF (parseNoRepo repo target) := by
  have hp := split_slash target
  unfold parseNoRepo
  simp only
  have e1 : ∀ t : Bytes, WF (if !hasPrefix target b!"//" then ⟨repo, [], target⟩
      else ⟨repo, trimPrefix (split2 58 target).1 b!"//", pathBase (trimPrefix (split2 58 target).1 b!"//")⟩) := by
    intro t
    split
    · exact ⟨by simp, hr, hr2, fun h => ⟨rfl, by rcases ht with ht | ht; exact absurd h ht; exact ht⟩⟩
    · exact ⟨hp, hr, hr2, fun h => absurd h (pathBase_ne_nil _)⟩
  split
  · split
    · rename_i h; exact ⟨hp, hr, hr2, fun h' => absurd h' h⟩
    · exact e1 []
  · exact e1 []

theorem parse_wf (s : Bytes) : WF (parse s) := by
  unfold parse
  split
  · simp only
    split
    · rename_i h
      rcases split2_eq 47 (trimLeft 64 s) with ⟨b, h1, _⟩ | ⟨h1, h2⟩
      · rw [h1] at h; simp at h
      · exact ⟨by simp, h2, trimLeft_head _ _, fun h => ⟨rfl, h⟩⟩
    · rename_i repo rest h
      rcases split2_eq 47 (trimLeft 64 s) with ⟨b, h1, h2⟩ | ⟨h1, h2⟩
      · have hf := split2_fst 47 (trimLeft 64 s)
        rw [h] at hf h2
        refine parseNoRepo_wf _ _ hf ?_ (.inl (by simp))
        have := trimLeft_head 64 s
        rw [h2] at this
        cases repo with
        | nil => simp
        | cons x r => simpa using this
      · rw [h1] at h; simp at h
  · refine parseNoRepo_wf _ _ (by simp) (by simp) (.inr rfl)

theorem hasPrefix_append (a b : Bytes) : hasPrefix (a ++ b) a = true := by
  simp [hasPrefix]

theorem trimPrefix_append (a b : Bytes) : trimPrefix (a ++ b) a = b := by
  simp [trimPrefix]

/-- parsing `//pkg:target` -/
theorem parseNoRepo_long (repo pkg t : Bytes) (hp : c!":" ∉ pkg) (ht : t ≠ []) :
    parseNoRepo repo (b!"//" ++ pkg ++ c!":" :: t) = ⟨repo, pkg, t⟩ := by
  unfold parseNoRepo
  have hs : split2 58 (b!"//" ++ pkg ++ 58 :: t) = (b!"//" ++ pkg, some t) :=
    split2_some 58 _ _ (by simpa using hp)
  simp only [hs]
  simp only [trimPrefix_append]
  simp [ht]

/-- parsing `//pkg` -/
theorem parseNoRepo_short (repo pkg : Bytes) (hp : c!":" ∉ pkg) :
    parseNoRepo repo (b!"//" ++ pkg) = ⟨repo, pkg, pathBase pkg⟩ := by
  unfold parseNoRepo
  have hs : split2 58 (b!"//" ++ pkg) = (b!"//" ++ pkg, none) :=
    split2_none 58 _ (by simpa using hp)
  simp only [hs, trimPrefix_append, hasPrefix_append]
  simp

theorem parse_at (repo rest : Bytes) (hr : c!"/" ∉ repo) (hr2 : repo.head? ≠ some c!"@") :
    parse (c!"@" :: repo ++ c!"/" :: rest) = parseNoRepo repo (c!"/" :: rest) := by
  unfold parse
  have h1 : hasPrefix (c!"@" :: repo ++ c!"/" :: rest) b!"@" = true := by simp [hasPrefix]
  have h2 : trimLeft 64 (64 :: repo ++ 47 :: rest) = repo ++ 47 :: rest := by
    have : trimLeft 64 (64 :: repo ++ 47 :: rest) = trimLeft 64 (repo ++ 47 :: rest) := by
      simp [trimLeft, List.dropWhile]
    rw [this]
    apply trimLeft_of_head
    cases repo with
    | nil => simp
    | cons x r => simpa using hr2
  simp only [h1, h2, split2_some 47 repo rest hr]
  simp

theorem parse_at_only (repo : Bytes) (hr : c!"/" ∉ repo) (hr2 : repo.head? ≠ some c!"@") :
    parse (c!"@" :: repo) = ⟨repo, [], repo⟩ := by
  unfold parse
  have h1 : hasPrefix (c!"@" :: repo) b!"@" = true := by simp [hasPrefix]
  have h2 : trimLeft 64 (64 :: repo) = repo := by
    have : trimLeft 64 (64 :: repo) = trimLeft 64 repo := by simp [trimLeft, List.dropWhile]
    rw [this]; exact trimLeft_of_head _ _ hr2
  simp only [h1, h2, split2_none 47 repo hr]
  simp

theorem parse_format (l : Label) (h : WF l) : parse (format l) = l := by
  obtain ⟨R, P, T⟩ := l
  obtain ⟨hp, hr, hr2, ht⟩ := h
  simp only at hp hr hr2 ht
  unfold format
  simp only
  split
  · rename_i hRT
    obtain ⟨rfl, rfl⟩ := hRT
    by_cases hR : R = []
    · subst hR; decide
    · rw [if_pos hR]; exact parse_at_only R hr hr2
  · rename_i hne
    have hT : T ≠ [] := by
      intro h
      obtain ⟨h1, h2⟩ := ht h
      exact hne ⟨by rw [h, h2], h1⟩
    have hslash : ∀ l : Bytes, b!"//" ++ l = c!"/" :: (c!"/" :: l) := fun _ => rfl
    have hpre : ∀ l : Bytes, parse ((if R ≠ [] then c!"@" :: R else []) ++ (b!"//" ++ l)) = parseNoRepo R (b!"//" ++ l) := by
      intro l
      split
      · rw [hslash]; exact parse_at R _ hr hr2
      · rename_i hR
        have hR' : R = [] := Classical.byContradiction hR
        subst hR'
        simp [parse, hasPrefix]
    by_cases hb : T = pathBase P
    case neg =>
      rw [if_pos hb]
      have := hpre (P ++ c!":" :: T)
      simp only [List.append_assoc] at this ⊢
      rw [this, ← List.append_assoc]
      exact parseNoRepo_long R P T hp hT
    case pos =>
      have hbn : ¬ (T ≠ pathBase P) := fun h => h hb
      rw [if_neg hbn]
      have := hpre P
      simp only [List.append_assoc, List.append_nil] at this ⊢
      rw [this, hb]
      exact parseNoRepo_short R P hp

/-- A formatted label starts with `@` or `//` unless it is the degenerate all-empty label. -/
theorem format_absolute (l : Label) (h : ¬ (l.repository = [] ∧ l.package = [] ∧ l.target = [])) :
    hasPrefix (format l) b!"@" = true ∨ hasPrefix (format l) b!"//" = true := by
  obtain ⟨R, P, T⟩ := l
  unfold format
  simp only at h ⊢
  by_cases hR : R = []
  · subst hR
    right
    rw [if_neg (fun hc => h ⟨rfl, hc.2, hc.1.symm⟩)]
    simp [hasPrefix]
  · left
    split
    · simp [hR, hasPrefix]
    · simp [hR, hasPrefix]

/-- an absolute label string -/
def isAbs (s : Bytes) : Bool := hasPrefix s b!"@" || hasPrefix s b!"//"

theorem parseRelative_abs (s pkg : Bytes) (h : isAbs s = true) : parseRelative s pkg = parse s := by
  unfold parseRelative isAbs at *
  simp only [Bool.or_eq_true] at h
  rw [if_neg]
  rcases h with h | h <;> simp [h]

theorem shorten_abs (s pkg : Bytes) (h : isAbs s = true) : shorten s pkg = formatRelative (parse s) pkg := by
  unfold shorten isAbs at *
  simp only [Bool.or_eq_true] at h
  rw [if_neg]
  rcases h with h | h <;> simp [h]

theorem shorten_rel (s pkg : Bytes) (h : isAbs s = false) : shorten s pkg = s := by
  unfold shorten isAbs at *
  simp only [Bool.or_eq_false_iff] at h
  simp [h.1, h.2]

theorem parse_target_nil (s : Bytes) : (parse s).target = [] ↔ ∀ c ∈ s, c = c!"@" := by
  constructor
  · intro h
    unfold parse at h
    split at h
    · simp only at h
      split at h
      · exact (trimLeft_nil_iff 64 s).1 h
      · rename_i repo rest hs
        exfalso
        have := (parseNoRepo_wf [] (47 :: rest) (by simp) (by simp) (.inr rfl))
        revert h
        unfold parseNoRepo
        simp only
        split
        · split
          · rename_i ht; exact ht
          · split
            · simp
            · exact pathBase_ne_nil _
        · split
          · simp
          · exact pathBase_ne_nil _
    · revert h
      unfold parseNoRepo
      simp only
      split
      · split
        · rename_i ht; exact fun h => absurd h ht
        · split
          · rename_i hp _; intro h; simp only at h; subst h; simp
          · exact fun h => absurd h (pathBase_ne_nil _)
      · split
        · intro h; simp only at h; subst h; simp
        · exact fun h => absurd h (pathBase_ne_nil _)
  · intro h
    cases s with
    | nil => decide
    | cons c l =>
      have hc : c = 64 := h c (by simp)
      subst hc
      have h1 : hasPrefix (64 :: l) b!"@" = true := by simp [hasPrefix]
      have h2 : trimLeft 64 (64 :: l) = [] := (trimLeft_nil_iff 64 _).2 h
      simp [parse, h1, h2, split2]

end Verif.Labels
