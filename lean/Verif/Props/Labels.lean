import Verif.Proofs.Labels
/-
Property theorems C04-C07 (labels).
-/
namespace Verif.Props.Labels
open Verif Verif.Labels

/-- C04: formatting a parsed label and parsing it again gives the same label, for *every* input string. -/
theorem C04_parse_format_parse (s : Bytes) : parse (format (parse s)) = parse s :=
  parse_format _ (parse_wf s)

/-- C04: round trip for every well-formed label, not only parsed ones: no `:` in the package, no `/` in the
repository, which does not begin with `@`, and a non-empty target. -/
theorem C04_parse_format (l : Label) (hp : c!":" ∉ l.package) (hr : c!"/" ∉ l.repository)
    (ha : l.repository.head? ≠ some c!"@") (ht : l.target ≠ []) : parse (format l) = l :=
  parse_format l ⟨hp, hr, ha, fun h => absurd h ht⟩

/-- C04: formatting is injective on such labels: different labels never get the same text. -/
theorem C04_format_injective (l l' : Label)
    (hp : c!":" ∉ l.package) (hr : c!"/" ∉ l.repository) (ha : l.repository.head? ≠ some c!"@") (ht : l.target ≠ [])
    (hp' : c!":" ∉ l'.package) (hr' : c!"/" ∉ l'.repository) (ha' : l'.repository.head? ≠ some c!"@")
    (ht' : l'.target ≠ []) (h : format l = format l') : l = l' := by
  rw [← C04_parse_format l hp hr ha ht, h, C04_parse_format l' hp' hr' ha' ht']

example : parse b!"@r//a/b:b" = ⟨b!"r", b!"a/b", b!"b"⟩ ∧ format ⟨b!"r", b!"a/b", b!"b"⟩ = b!"@r//a/b" := by decide

/-- What a label string denotes when it is written in package `pkg` of the main repository. -/
def denotes (s pkg : Bytes) : Bytes × Bytes × Bytes :=
  let l := parseRelative s pkg
  (l.repository, l.package, l.target)

theorem denotes_inj (s s' pkg : Bytes) : denotes s pkg = denotes s' pkg ↔ parseRelative s pkg = parseRelative s' pkg := by
  unfold denotes
  constructor
  · intro h
    cases h1 : parseRelative s pkg
    cases h2 : parseRelative s' pkg
    rw [h1, h2] at h
    simp at h
    simp [h]
  · intro h; rw [h]

/-- C05: shortening never changes what a label denotes, except in the two degenerate cases listed: a string of
only `@` signs, and a local target whose name begins with a colon. The characterisation is exact. -/
theorem C05_shorten_denotes_iff (s pkg : Bytes) :
    denotes (shorten s pkg) pkg = denotes s pkg ↔
      ¬ ((s ≠ [] ∧ (∀ c ∈ s, c = c!"@") ∧ pkg ≠ []) ∨
         (isAbs s = true ∧ (parse s).repository = [] ∧ (parse s).package = pkg ∧ (parse s).target.head? = some c!":")) := by
  rw [denotes_inj]
  cases habs : isAbs s with
  | false =>
    rw [shorten_rel s pkg habs]
    simp only [true_iff]
    rintro (⟨h1, h2, _⟩ | ⟨h, _⟩)
    · cases s with
      | nil => exact h1 rfl
      | cons c l =>
        have hc := h2 c (by simp)
        subst hc
        simp [isAbs, hasPrefix] at habs
    · simp at h
  | true =>
    rw [shorten_abs s pkg habs, parseRelative_abs s pkg habs]
    have hwf := parse_wf s
    have htn := parse_target_nil s
    have hsne : s ≠ [] := by intro h; subst h; simp [isAbs, hasPrefix] at habs
    generalize parse s = l at *
    obtain ⟨R, P, T⟩ := l
    unfold formatRelative
    simp only at htn hwf ⊢
    by_cases hT : T = []
    · -- only `@` signs
      subst hT
      obtain ⟨rfl, rfl⟩ : P = [] ∧ R = [] := hwf.tgt rfl
      have hall := htn.1 rfl
      by_cases hpkg : pkg = []
      · subst hpkg
        simp
        decide
      · have hb : format ⟨[], [], []⟩ = [] := by decide
        simp [hpkg, hb, hsne, parseRelative, hasPrefix]
        exact hall
    · have hnall : ¬ ∀ c ∈ s, c = c!"@" := fun h => hT (htn.2 h)
      by_cases hrel : R ≠ [] ∨ pkg ≠ P
      · rw [if_pos hrel]
        have ha := format_absolute ⟨R, P, T⟩ (fun h => hT h.2.2)
        have ha' : isAbs (format ⟨R, P, T⟩) = true := by simpa [isAbs] using ha
        rw [parseRelative_abs _ _ ha', parse_format _ hwf]
        simp only [true_iff]
        rintro (⟨_, h, _⟩ | ⟨_, h1, h2, _⟩)
        · exact hnall h
        · rcases hrel with h | h
          · exact h h1
          · exact h h2.symm
      · rw [if_neg hrel]
        have hR : R = [] := Classical.byContradiction fun h => hrel (.inl h)
        have hP : pkg = P := Classical.byContradiction fun h => hrel (.inr h)
        subst hR hP
        have hpr : parseRelative (c!":" :: T) pkg = ⟨[], pkg, trimLeft c!":" (c!":" :: T)⟩ := by
          simp [parseRelative, hasPrefix]
        rw [hpr]
        have htl : trimLeft 58 (58 :: T) = trimLeft 58 T := by simp [trimLeft]
        rw [htl]
        have key : trimLeft 58 T = T ↔ T.head? ≠ some 58 :=
          ⟨fun h => h ▸ trimLeft_head 58 T, trimLeft_of_head 58 T⟩
        simp only [Label.mk.injEq, true_and, key]
        constructor
        · rintro h (⟨_, h', _⟩ | h')
          · exact hnall h'
          · exact h h'
        · intro h h'
          exact h (.inr h')

/-- C05: hence for ordinary labels (absolute, with a target that does not begin with a colon) shortening keeps the
denoted target. -/
theorem C05_shorten_preserves (s pkg : Bytes) (h1 : ¬ ∀ c ∈ s, c = c!"@")
    (h2 : (parse s).target.head? ≠ some c!":") : denotes (shorten s pkg) pkg = denotes s pkg := by
  rw [C05_shorten_denotes_iff]
  rintro (⟨_, h, _⟩ | ⟨_, _, _, h⟩)
  · exact h1 h
  · exact h2 h

/-- C05: inputs that are not absolute labels are returned unchanged. -/
theorem C05_shorten_relative (s pkg : Bytes) (h1 : hasPrefix s b!"//" = false) (h2 : hasPrefix s b!"@" = false) :
    shorten s pkg = s := by
  simp [shorten, h1, h2]

/-- C05: the exceptions are real. -/
theorem C05_exception_witness :
    denotes (shorten b!"//foo::bar" b!"foo") b!"foo" ≠ denotes b!"//foo::bar" b!"foo" ∧
    denotes (shorten b!"@" b!"foo") b!"foo" ≠ denotes b!"@" b!"foo" := by decide

example : shorten b!"//foo/bar:bar" b!"x" = b!"//foo/bar" ∧ shorten b!"//foo/bar:baz" b!"foo/bar" = b!":baz" ∧
    (parse b!"//foo/bar:baz").target.head? ≠ some c!":" := by decide

/-- C05/C06: exact output of shortening. An absolute label in the same package becomes `:target`; otherwise the
target is omitted exactly when it is the last component of the package, and an external repository's main target
is just `@repo`. -/
theorem C06_shorten_forms (s pkg : Bytes) (h : isAbs s = true) :
    shorten s pkg =
      if (parse s).repository = [] ∧ pkg = (parse s).package then c!":" :: (parse s).target
      else if (parse s).package = [] ∧ (parse s).repository = (parse s).target then
        (if (parse s).repository = [] then [] else c!"@" :: (parse s).repository)
      else (if (parse s).repository = [] then [] else c!"@" :: (parse s).repository) ++ b!"//" ++ (parse s).package ++
        (if (parse s).target = pathBase (parse s).package then [] else c!":" :: (parse s).target) := by
  rw [shorten_abs s pkg h]
  generalize parse s = l
  obtain ⟨R, P, T⟩ := l
  unfold formatRelative format
  simp only
  have swap : ∀ {α : Type} (p : Prop) [Decidable p] (a b : α), (if p then a else b) = if ¬ p then b else a := by
    intro α p _ a b; by_cases hp : p <;> simp [hp]
  have e1 : (if R ≠ [] then c!"@" :: R else []) = if R = [] then [] else c!"@" :: R := by rw [swap]; simp
  have e2 : (if T ≠ pathBase P then c!":" :: T else []) = if T = pathBase P then [] else c!":" :: T := by
    rw [swap]; simp
  rw [e1, e2]
  by_cases h1 : R = [] ∧ pkg = P
  · rw [if_neg (by rintro (h | h); exact h h1.1; exact h h1.2), if_pos h1]
  · rw [if_neg h1, if_pos (by
      by_cases hR : R = []
      · exact .inr fun h => h1 ⟨hR, h⟩
      · exact .inl hR)]
    by_cases h2 : R = T ∧ P = []
    · have h3 : P = [] ∧ R = T := ⟨h2.2, h2.1⟩
      rw [if_pos h2, if_pos h3]
    · have h3 : ¬ (P = [] ∧ R = T) := fun h => h2 ⟨h.2, h.1⟩
      rw [if_neg h2, if_neg h3]

/-- C06: shortening is idempotent, for every string and package. -/
theorem C06_shorten_idempotent (s pkg : Bytes) : shorten (shorten s pkg) pkg = shorten s pkg := by
  cases habs : isAbs s with
  | false => rw [shorten_rel s pkg habs, shorten_rel s pkg habs]
  | true =>
    rw [shorten_abs s pkg habs]
    have hwf := parse_wf s
    generalize parse s = l at *
    unfold formatRelative
    split
    · rename_i hrel
      cases h : isAbs (format l) with
      | false => exact shorten_rel _ _ h
      | true =>
        rw [shorten_abs _ _ h, parse_format l hwf]
        unfold formatRelative
        rw [if_pos hrel]
    · apply shorten_rel
      simp [isAbs, hasPrefix, List.isPrefixOf]

/-- C06: two absolute labels that are equal relative to `pkg` shorten to the same string. -/
theorem C06_shorten_canonical (s s' pkg : Bytes) (h : isAbs s = true) (h' : isAbs s' = true)
    (heq : equal s s' pkg = true) : shorten s pkg = shorten s' pkg := by
  unfold equal at heq
  simp only [decide_eq_true_eq] at heq
  rw [parseRelative_abs _ _ h, parseRelative_abs _ _ h'] at heq
  rw [shorten_abs _ _ h, shorten_abs _ _ h', heq]

example : isAbs b!"//a/b:b" = true ∧ isAbs b!"//a/b" = true ∧ equal b!"//a/b:b" b!"//a/b" b!"x" = true ∧
  shorten b!"//a/b:b" b!"x" = b!"//a/b" := by decide

/-- C07: label equality relative to a fixed package is an equivalence relation. -/
theorem C07_equal_equivalence (pkg : Bytes) :
    (∀ a, equal a a pkg = true) ∧ (∀ a b, equal a b pkg = true → equal b a pkg = true) ∧
    (∀ a b c, equal a b pkg = true → equal b c pkg = true → equal a c pkg = true) := by
  simp only [equal, decide_eq_true_eq]
  exact ⟨fun _ => trivial, fun _ _ h => h.symm, fun _ _ _ h h' => h.trans h'⟩

/-- C07: equality means denoting the same target. -/
theorem C07_equal_iff_denotes (a b pkg : Bytes) : equal a b pkg = true ↔ denotes a pkg = denotes b pkg := by
  rw [denotes_inj]; simp [equal]

/-- C07: the leading colon of a local label is irrelevant. -/
theorem C07_equal_colon (x pkg : Bytes) (h1 : isAbs x = false) : equal (c!":" :: x) x pkg = true := by
  have h2 : isAbs (c!":" :: x) = false := by simp [isAbs, hasPrefix, List.isPrefixOf]
  simp only [isAbs, Bool.or_eq_false_iff] at h1 h2
  simp [equal, parseRelative, h1.1, h1.2, h2.1, h2.2, trimLeft]

/-- C07: the long form and the local form of a label in `pkg` are equal. -/
theorem C07_equal_long_short (pkg t : Bytes) (hp : c!":" ∉ pkg) (ht : t ≠ []) (ht2 : t.head? ≠ some c!":") :
    equal (b!"//" ++ pkg ++ c!":" :: t) (c!":" :: t) pkg = true := by
  have h : isAbs (b!"//" ++ pkg ++ c!":" :: t) = true := by simp [isAbs, hasPrefix]
  have h' : parse (b!"//" ++ pkg ++ c!":" :: t) = ⟨[], pkg, t⟩ := by
    have := parseNoRepo_long [] pkg t hp ht
    rw [← this]
    simp [parse, hasPrefix]
  have h3 : parseRelative (c!":" :: t) pkg = ⟨[], pkg, t⟩ := by
    have := trimLeft_of_head 58 t ht2
    have e : trimLeft 58 (58 :: t) = trimLeft 58 t := by simp [trimLeft]
    simp [parseRelative, hasPrefix, e, this]
  rw [equal, parseRelative_abs _ _ h, h', h3]; simp

/-- C07: the target may be omitted when it is the last package component. -/
theorem C07_equal_default_target (dir name pkg : Bytes) (hd : c!":" ∉ dir) (hn : c!":" ∉ name) (hs : c!"/" ∉ name)
    (hne : name ≠ []) :
    equal (b!"//" ++ (dir ++ c!"/" :: name) ++ c!":" :: name) (b!"//" ++ (dir ++ c!"/" :: name)) pkg = true := by
  have hp : c!":" ∉ dir ++ c!"/" :: name := by simp [hd, hn]
  have h : isAbs (b!"//" ++ (dir ++ c!"/" :: name) ++ c!":" :: name) = true := by simp [isAbs, hasPrefix]
  have h2 : isAbs (b!"//" ++ (dir ++ c!"/" :: name)) = true := by simp [isAbs, hasPrefix]
  have e1 : parse (b!"//" ++ (dir ++ c!"/" :: name) ++ c!":" :: name) = ⟨[], dir ++ c!"/" :: name, name⟩ := by
    rw [← parseNoRepo_long [] _ name hp hne]; simp [parse, hasPrefix]
  have e2 : parse (b!"//" ++ (dir ++ c!"/" :: name)) = ⟨[], dir ++ c!"/" :: name, pathBase (dir ++ c!"/" :: name)⟩ := by
    rw [← parseNoRepo_short [] _ hp]; simp [parse, hasPrefix]
  have hb : pathBase (dir ++ c!"/" :: name) = name := by
    unfold pathBase
    rw [if_neg (by simp)]
    have hrev : (dir ++ 47 :: name).reverse = name.reverse ++ 47 :: dir.reverse := by simp
    have hr1 : 47 ∉ name.reverse := by simpa using hs
    have hd1 : (name.reverse ++ 47 :: dir.reverse).dropWhile (· == 47) = name.reverse ++ 47 :: dir.reverse := by
      cases hn : name.reverse with
      | nil => simp at hn; exact absurd hn hne
      | cons x r =>
        rw [hn] at hr1
        have : (x == 47) = false := by simpa using fun h : x = 47 => hr1 (by simp [h])
        simp [this]
    have hd2 : (name.reverse ++ 47 :: dir.reverse).takeWhile (· != 47) = name.reverse := by
      rw [List.takeWhile_append_of_pos]
      · simp
      · intro x hx
        simp only [bne_iff_ne, ne_eq]
        exact fun h => hr1 (h ▸ hx)
    simp only [hrev, hd1, afterLast, List.reverse_reverse, hd2]
    simp [hne]
  rw [equal, parseRelative_abs _ _ h, parseRelative_abs _ _ h2, e1, e2, hb]; simp

example : (b!":" : Bytes).head? = some c!":" ∧ isAbs b!"x.go" = false ∧ equal b!":x.go" b!"x.go" b!"p" = true ∧
    equal b!"//p:x.go" b!"x.go" b!"p" = true ∧ equal b!"//p:x.go" b!"x.go" b!"q" = false := by decide

end Verif.Props.Labels
