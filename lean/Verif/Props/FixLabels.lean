import Verif.Model.FixLabels
import Verif.Proofs.Labels
import Verif.Proofs.WalkMut
/-
C24: label canonicalisation preserves what labels denote.
-/
namespace Verif.Props.FixLabels
open Verif Verif.Syntax Verif.Walk Verif.Rewrite Verif.Labels

/-! ### Specification -/

/-- The part of an absolute label after `//`, in the usual form `pkg` or `pkg:target`: a package without colon, newline,
leading or trailing slash, other than `.`, and a target without colon. -/
def UsualBody (body : Bytes) : Prop :=
  ∃ pkg, c!":" ∉ pkg ∧ (10 : UInt8) ∉ pkg ∧ pkg.head? ≠ some c!"/" ∧ pkg.getLast? ≠ some c!"/" ∧ pkg ≠ b!"." ∧
    (body = pkg ∨ ∃ t, t ≠ [] ∧ c!":" ∉ t ∧ body = pkg ++ c!":" :: t)

/-- Absolute labels of this string are in the usual form. (Strings that are not absolute labels are not restricted.) -/
def Usual (s : Bytes) : Prop :=
  (∀ body, s = b!"//" ++ body → UsualBody body) ∧
  (∀ repo body, s = c!"@" :: repo ++ b!"//" ++ body → c!"/" ∉ repo → UsualBody body)

/-- the package of a build file in directory `dir` of the workspace (`.` is the top directory) -/
def packageOf (dir : Bytes) : Bytes := if dir = b!"." then [] else dir

/-! ### Proofs -/

theorem mem_takeWhile {α} {p : α → Bool} {l : List α} {x : α} (h : x ∈ l.takeWhile p) : p x = true := by
  induction l with
  | nil => cases h
  | cons y l ih =>
    rw [List.takeWhile_cons] at h
    split at h
    · rename_i hy
      rcases List.mem_cons.mp h with h | h
      · subst h; exact hy
      · exact ih h
    · cases h

theorem dirLength_some {body : Bytes} {n : Nat} (h : dirLength body = some n) :
    ∃ a rest, body = a ++ c!"/" :: rest ∧ n = a.length + 1 ∧ a ≠ [] ∧
      c!"/" ∉ rest.takeWhile (· != 10) ∧ (10 : UInt8) ∉ a := by
  unfold dirLength at h
  dsimp only at h
  generalize hl : body.takeWhile (· != 10) = line at h
  have hb : body = line ++ body.dropWhile (· != 10) := by rw [← hl, List.takeWhile_append_dropWhile]
  split at h
  · cases h
  · rename_i hlen
    injection h with h
    have hrev : line.reverse = line.reverse.takeWhile (· != c!"/") ++ line.reverse.dropWhile (· != c!"/") := by
      rw [List.takeWhile_append_dropWhile]
    cases hd : line.reverse.dropWhile (· != c!"/") with
    | nil => rw [hd] at hlen; simp at hlen
    | cons c d =>
      have hc : c = c!"/" := by
        have := List.head?_dropWhile_not (p := (· != c!"/")) (l := line.reverse)
        rw [hd] at this
        simpa using this
      subst hc
      rw [hd] at hrev hlen h
      have hline : line = d.reverse ++ c!"/" :: (line.reverse.takeWhile (· != c!"/")).reverse := by
        have := congrArg List.reverse hrev
        rw [List.reverse_reverse, List.reverse_append, List.reverse_cons, List.append_assoc] at this
        exact this
      have hns : c!"/" ∉ (line.reverse.takeWhile (· != c!"/")).reverse := by
        intro hm
        have := mem_takeWhile (List.mem_reverse.mp hm)
        simp at this
      refine ⟨d.reverse, (line.reverse.takeWhile (· != c!"/")).reverse ++ body.dropWhile (· != 10), ?_, ?_, ?_, ?_, ?_⟩
      · conv => lhs; rw [hb, hline]
        simp
      · simp at h; simp; omega
      · intro he; simp at he; subst he; simp at hlen
      · have h10 : ∀ x ∈ (line.reverse.takeWhile (· != c!"/")).reverse, (x != 10) = true := by
          intro x hx
          have : x ∈ line := by
            rw [hline]; simp only [List.mem_append, List.mem_cons]; exact .inr (.inr hx)
          rw [← hl] at this
          exact mem_takeWhile (p := fun x => x != 10) this
        rw [List.takeWhile_append_of_pos h10]
        intro hm
        rcases List.mem_append.mp hm with hm | hm
        · exact hns hm
        · cases hdw : body.dropWhile (· != 10) with
          | nil => rw [hdw] at hm; cases hm
          | cons y ys =>
            have := List.head?_dropWhile_not (p := (· != (10 : UInt8))) (l := body)
            rw [hdw] at this
            rw [hdw] at hm
            simp at this
            subst this
            simp at hm
      · intro hm
        have : (10 : UInt8) ∈ line := by rw [hline]; simp only [List.mem_append]; exact .inl hm
        rw [← hl] at this
        have := mem_takeWhile this
        simp at this

theorem dirLength_none {body : Bytes} (h : dirLength body = none) : c!"/" ∉ (body.takeWhile (· != 10)).tail := by
  unfold dirLength at h
  dsimp only at h
  generalize hl : body.takeWhile (· != 10) = line at h
  split at h
  · rename_i hlen
    intro hm
    cases line with
    | nil => cases hm
    | cons x l =>
      simp only [List.tail_cons] at hm
      simp only [List.length_reverse, List.reverse_cons] at hlen
      have : ∀ (r : Bytes), c!"/" ∈ r → ((r ++ [x]).dropWhile (· != c!"/")).length ≥ 2 := by
        intro r
        induction r with
        | nil => intro h; cases h
        | cons y r ih =>
          intro h
          rw [List.cons_append, List.dropWhile_cons]
          split
          · rename_i hy
            rcases List.mem_cons.mp h with h | h
            · subst h; simp at hy
            · exact ih h
          · simp
      have := this l.reverse (List.mem_reverse.mpr hm)
      omega
  · cases h

theorem afterLast_split (a b : Bytes) (hb : c!"/" ∉ b) : afterLast c!"/" (a ++ c!"/" :: b) = b := by
  unfold afterLast
  rw [List.reverse_append, List.reverse_cons, List.append_assoc]
  rw [List.takeWhile_append_of_pos]
  · simp
  · intro x hx
    have : x ∈ b := List.mem_reverse.mp hx
    simp only [bne_iff_ne, ne_eq]
    intro e; subst e; exact hb this

theorem afterLast_none (b : Bytes) (hb : c!"/" ∉ b) : afterLast c!"/" b = b := by
  unfold afterLast
  have : b.reverse.takeWhile (· != c!"/") = b.reverse := by
    have := List.takeWhile_append_of_pos (p := (· != c!"/")) (l₁ := b.reverse) (l₂ := []) (by
      intro x hx
      simp only [bne_iff_ne, ne_eq]
      intro e; subst e; exact hb (List.mem_reverse.mp hx))
    simpa using this
  rw [this, List.reverse_reverse]

theorem trimRight_of_last (p : Bytes) (h : p.getLast? ≠ some c!"/") : (p.reverse.dropWhile (· == c!"/")).reverse = p := by
  have : p.reverse.head? ≠ some c!"/" := by rw [List.head?_reverse]; exact h
  have := trimLeft_of_head c!"/" p.reverse this
  unfold trimLeft at this
  rw [this, List.reverse_reverse]

theorem pathBase_split (a b : Bytes) (hb : c!"/" ∉ b) (hne : b ≠ []) : pathBase (a ++ c!"/" :: b) = b := by
  have hl : (a ++ c!"/" :: b).getLast? ≠ some c!"/" := by
    intro h
    obtain ⟨y, hy⟩ : ∃ y, b.getLast? = some y := by
      cases h' : b.getLast? with
      | none => exact absurd (List.getLast?_eq_none_iff.mp h') hne
      | some y => exact ⟨y, rfl⟩
    have e : (a ++ c!"/" :: b) = (a ++ [c!"/"]) ++ b := by simp
    rw [e, List.getLast?_append, hy] at h
    simp only [Option.some_or] at h
    injection h with h
    subst h
    exact hb (List.mem_of_getLast? hy)
  unfold pathBase
  rw [if_neg (by simp), trimRight_of_last _ hl]
  dsimp only
  rw [afterLast_split a b hb]
  simp [hne]

theorem pathBase_plain (b : Bytes) (hb : c!"/" ∉ b) (hne : b ≠ []) : pathBase b = b := by
  have hl : b.getLast? ≠ some c!"/" := fun h => hb (List.mem_of_getLast? h)
  unfold pathBase
  rw [if_neg hne, trimRight_of_last _ hl]
  dsimp only
  rw [afterLast_none b hb]
  simp [hne]


theorem matchTail_none_colon (r : Bytes) (h : c!":" ∉ r) : matchTail r = some (r, []) := by
  unfold matchTail; rw [split2_none _ _ h]

theorem matchTail_colon (a b : Bytes) (h : c!":" ∉ a) (hb : b ≠ []) (hb2 : c!":" ∉ b) :
    matchTail (a ++ c!":" :: b) = some (a, b) := by
  unfold matchTail
  rw [split2_some _ _ _ h]
  have : (b.contains c!":") = false := by simpa using hb2
  simp only [this]
  simp [hb]

/-- How the regular expression splits an ordinary label body: the package, its last component, and the target. -/
theorem matchBody_usual (pkg t : Bytes) (h1 : c!":" ∉ pkg) (h2 : (10 : UInt8) ∉ pkg) (h3 : pkg.head? ≠ some c!"/")
    (h4 : pkg.getLast? ≠ some c!"/") (ht : t ≠ []) (ht2 : c!":" ∉ t) :
    (∃ d g4, matchBody (pkg ++ c!":" :: t) = some (d, g4, []))
    ∨ (∃ g4, matchBody (pkg ++ c!":" :: t) = some (pkg, g4, t) ∧ (g4 = [] → pkg = []) ∧
        (g4 = t → pathBase pkg = g4)) := by
  unfold matchBody
  cases hd : dirLength (pkg ++ c!":" :: t) with
  | none =>
    right
    simp only [Option.getD_none, List.drop_zero, List.take_zero, List.nil_append]
    rw [matchTail_colon pkg t h1 ht ht2]
    refine ⟨pkg, rfl, id, ?_⟩
    intro e
    subst e
    have hn := dirLength_none hd
    refine pathBase_plain pkg ?_ ht
    intro hm
    cases pkg with
    | nil => cases hm
    | cons x l =>
      have hx : x ≠ c!"/" := by simpa using h3
      rcases List.mem_cons.mp hm with hm | hm
      · exact hx hm.symm
      · apply hn
        rw [List.takeWhile_append_of_pos]
        · simp only [List.cons_append, List.tail_cons, List.mem_append]; exact .inl hm
        · intro y hy; simp only [bne_iff_ne, ne_eq]; intro e; subst e; exact h2 hy
  | some n =>
    obtain ⟨a, rest, he, rfl, ha, hr, ha10⟩ := dirLength_some hd
    simp only [Option.getD_some]
    rcases List.append_eq_append_iff.mp he with ⟨m, hm1, hm2⟩ | ⟨m, hm1, hm2⟩
    · -- the slash is in the target
      left
      cases m with
      | nil => simp at hm2
      | cons x m =>
        simp only [List.cons_append, List.cons.injEq] at hm2
        obtain ⟨_, hm2⟩ := hm2
        have hrest : c!":" ∉ rest := by
          intro hc; apply ht2; rw [hm2]; simp [hc]
        have : (pkg ++ c!":" :: t).drop (a.length + 1) = rest := by
          rw [he, show a ++ c!"/" :: rest = (a ++ [c!"/"]) ++ rest from by simp, List.drop_left' (by simp)]
        rw [this, matchTail_none_colon rest hrest]
        exact ⟨_, _, rfl⟩
    · -- the slash is in the package
      right
      cases m with
      | nil => simp at hm2
      | cons x m =>
        simp only [List.cons_append, List.cons.injEq] at hm2
        obtain ⟨hx, hm2⟩ := hm2
        subst hx
        subst hm1
        have hm : c!":" ∉ m := by intro hc; apply h1; simp [hc]
        have e1 : ((a ++ c!"/" :: m) ++ c!":" :: t).drop (a.length + 1) = m ++ c!":" :: t := by
          rw [show (a ++ c!"/" :: m) ++ c!":" :: t = (a ++ [c!"/"]) ++ (m ++ c!":" :: t) from by simp, List.drop_left' (by simp)]
        have e2 : ((a ++ c!"/" :: m) ++ c!":" :: t).take (a.length + 1) = a ++ [c!"/"] := by
          rw [show (a ++ c!"/" :: m) ++ c!":" :: t = (a ++ [c!"/"]) ++ (m ++ c!":" :: t) from by simp, List.take_left' (by simp)]
        rw [e1, e2, matchTail_colon m t hm ht ht2]
        refine ⟨m, by simp, ?_, ?_⟩
        · intro hm0
          subst hm0
          simp at h4
        · intro e
          subst e
          refine pathBase_split a m ?_ ht
          intro hc
          apply hr
          rw [hm2, List.takeWhile_append_of_pos]
          · exact List.mem_append.mpr (.inl hc)
          · intro y hy; simp only [bne_iff_ne, ne_eq]; intro e; subst e; exact h2 (by simp [hy])

theorem matchBody_pkg (pkg : Bytes) (h1 : c!":" ∉ pkg) : ∃ d g4, matchBody pkg = some (d, g4, []) := by
  unfold matchBody
  have : c!":" ∉ pkg.drop ((dirLength pkg).getD 0) := fun h => h1 (List.mem_of_mem_drop h)
  dsimp only
  rw [matchTail_none_colon _ this]
  exact ⟨_, _, rfl⟩

theorem isWord_not_slash {w : Bytes} (h : ∀ x ∈ w, isWord x = true) : c!"/" ∉ w ∧ c!"@" ∉ w := by
  constructor
  · intro hm; exact absurd (h _ hm) (by decide)
  · intro hm; exact absurd (h _ hm) (by decide)

/-- what a matched prefix looks like -/
theorem matchRepo_some {s pre repo body : Bytes} (h : matchRepo s = some (pre, repo, body)) :
    (pre = b!"//" ∧ repo = [] ∧ s = b!"//" ++ body) ∨
    (repo ≠ [] ∧ c!"/" ∉ repo ∧ c!"@" ∉ repo ∧ pre = c!"@" :: repo ++ b!"//" ∧ s = c!"@" :: repo ++ b!"//" ++ body) := by
  unfold matchRepo at h
  split at h
  · rename_i hp
    injection h with h
    simp only [Prod.mk.injEq] at h
    obtain ⟨rfl, rfl, rfl⟩ := h
    left
    refine ⟨rfl, rfl, ?_⟩
    obtain ⟨t, ht⟩ := List.isPrefixOf_iff_prefix.mp hp
    rw [← ht]; rfl
  · split at h
    · rename_i l _
      dsimp only at h
      split at h
      · rename_i hc
        injection h with h
        simp only [Prod.mk.injEq] at h
        obtain ⟨rfl, rfl, rfl⟩ := h
        right
        simp only [Bool.and_eq_true, decide_eq_true_eq] at hc
        have hw := isWord_not_slash (w := l.takeWhile isWord) (fun x hx => mem_takeWhile hx)
        refine ⟨by simpa using hc.1, hw.1, hw.2, rfl, ?_⟩
        obtain ⟨t, ht⟩ := List.isPrefixOf_iff_prefix.mp hc.2
        have hd : l.drop ((l.takeWhile isWord).length + 2) = t := by
          rw [← List.drop_drop, ← ht]; rfl
        rw [hd]
        have : l = l.takeWhile isWord ++ l.drop (l.takeWhile isWord).length := by
          have := List.prefix_iff_eq_append.mp (List.takeWhile_prefix isWord (l := l))
          exact this.symm
        conv => lhs; rw [this, ← ht]
        simp
      · cases h
    · cases h

theorem dropTarget_rel (v : Bytes) (h : matchRepo v = none) : dropTarget false v = v := by
  unfold dropTarget labelRE
  simp [h]

theorem dropTarget_match {v pre repo body d g4 g5 : Bytes} (h : matchRepo v = some (pre, repo, body))
    (hb : matchBody body = some (d, g4, g5)) : dropTarget false v =
      if g4 ≠ [] && g4 == g5 then pre ++ d
      else if repo ≠ [] && g4 == [] && repo == g5 then c!"@" :: repo else v := by
  unfold dropTarget labelRE
  simp only [h, matchWith, hb]

/-- dropping a redundant target keeps the label -/
theorem dropTarget_denotes (s : Bytes) (hu : Usual s) (pkg : Bytes) :
    parseRelative (dropTarget false s) pkg = parseRelative s pkg := by
  cases hm : matchRepo s with
  | none => rw [dropTarget_rel s hm]
  | some m =>
    obtain ⟨pre, repo, body⟩ := m
    have hs := matchRepo_some hm
    have hub : UsualBody body := by
      rcases hs with ⟨_, _, h⟩ | ⟨_, h1, _, _, h⟩
      · exact hu.1 _ h
      · exact hu.2 _ _ h h1
    obtain ⟨P, h1, h2, h3, h4, _, hP⟩ := hub
    rcases hP with rfl | ⟨t, ht, ht2, rfl⟩
    · obtain ⟨d, g4, hb⟩ := matchBody_pkg body h1
      rw [dropTarget_match hm hb]
      rw [if_neg (by simp)]
      rw [if_neg (by simp; intro h _; exact h)]
    · rcases matchBody_usual P t h1 h2 h3 h4 ht ht2 with ⟨d, g4, hb⟩ | ⟨g4, hb, hz, hbase⟩
      · rw [dropTarget_match hm hb]
        rw [if_neg (by simp)]
        rw [if_neg (by simp; intro h _; exact h)]
      · rw [dropTarget_match hm hb]
        split
        · rename_i hc
          simp only [Bool.and_eq_true, decide_eq_true_eq, beq_iff_eq] at hc
          have hg : g4 = t := hc.2
          subst hg
          rcases hs with ⟨rfl, rfl, rfl⟩ | ⟨hr0, hr1, hr2, rfl, rfl⟩
          · rw [parseRelative_abs _ _ (by simp [isAbs, hasPrefix]), parseRelative_abs _ _ (by simp [isAbs, hasPrefix])]
            have e : ∀ x, parse (b!"//" ++ x) = parseNoRepo [] (b!"//" ++ x) := by intro x; simp [parse, hasPrefix]
            rw [e, e, ← List.append_assoc, parseNoRepo_long [] P g4 h1 ht, parseNoRepo_short [] P h1, hbase rfl]
          · have hh : repo.head? ≠ some c!"@" := by
              cases repo with
              | nil => simp
              | cons x r => simp only [List.head?_cons, ne_eq, Option.some.injEq]; intro e; subst e; simp at hr2
            rw [parseRelative_abs _ _ (by simp [isAbs, hasPrefix]), parseRelative_abs _ _ (by simp [isAbs, hasPrefix])]
            have e : ∀ x, parse (c!"@" :: repo ++ b!"//" ++ x) = parseNoRepo repo (b!"//" ++ x) := by
              intro x
              have := parse_at repo (c!"/" :: x) hr1 hh
              simpa using this
            rw [e, e, ← List.append_assoc, parseNoRepo_long repo P g4 h1 ht, parseNoRepo_short repo P h1, hbase rfl]
        · split
          · rename_i hc
            simp only [Bool.and_eq_true, decide_eq_true_eq, beq_iff_eq] at hc
            obtain ⟨⟨hr, hg⟩, he⟩ := hc
            have := hz hg
            subst this
            subst he
            rcases hs with ⟨_, h, _⟩ | ⟨hr0, hr1, hr2, _, rfl⟩
            · exact absurd h (by simpa using hr)
            · have hh : repo.head? ≠ some c!"@" := by
                cases repo with
                | nil => simp
                | cons x r => simp only [List.head?_cons, ne_eq, Option.some.injEq]; intro e; subst e; simp at hr2
              rw [parseRelative_abs _ _ (by simp [isAbs, hasPrefix]), parseRelative_abs _ _ (by simp [isAbs, hasPrefix])]
              rw [parse_at_only repo hr1 hh]
              have := parse_at repo (c!"/" :: (c!":" :: repo)) hr1 hh
              have e : c!"@" :: repo ++ b!"//" ++ ([] ++ c!":" :: repo) = c!"@" :: repo ++ c!"/" :: (c!"/" :: (c!":" :: repo)) := by simp
              rw [e, this]
              have := parseNoRepo_long repo [] repo (by simp) hr0
              exact this.symm
          · rfl

theorem trimLeft_no_colon (t : Bytes) (h : c!":" ∉ t) : trimLeft c!":" t = t := by
  apply trimLeft_of_head
  intro he
  exact h (List.mem_of_mem_head? he)

theorem pathBase_slashes (d : Bytes) (h3 : d.head? ≠ some c!"/") (h4 : d.getLast? ≠ some c!"/") (hd : d ≠ []) :
    pathBase (b!"//" ++ d) = pathBase d := by
  by_cases hs : c!"/" ∈ d
  · -- split at the last slash
    obtain ⟨a, b, rfl, hb⟩ : ∃ a b, d = a ++ c!"/" :: b ∧ c!"/" ∉ b := by
      clear h3 h4 hd
      induction d with
      | nil => cases hs
      | cons x d ih =>
        by_cases hd : c!"/" ∈ d
        · obtain ⟨a, b, rfl, hb⟩ := ih hd
          exact ⟨x :: a, b, rfl, hb⟩
        · rcases List.mem_cons.mp hs with h | h
          · exact ⟨[], d, by simp [← h], hd⟩
          · exact absurd h hd
    have hb0 : b ≠ [] := by intro h; subst h; simp at h4
    rw [show b!"//" ++ (a ++ c!"/" :: b) = (b!"//" ++ a) ++ c!"/" :: b from by simp, pathBase_split _ _ hb hb0, pathBase_split _ _ hb hb0]
  · have := pathBase_split b!"/" d hs hd
    rw [pathBase_plain d hs hd]
    exact this

theorem pathBase_mem (d : Bytes) (hd : d ≠ []) (h4 : d.getLast? ≠ some c!"/") : ∀ x ∈ pathBase d, x ∈ d := by
  unfold pathBase
  rw [if_neg hd, trimRight_of_last _ h4]
  dsimp only
  split
  · rename_i h
    intro x hx
    unfold afterLast at h
    simp only [List.reverse_eq_nil_iff] at h
    exfalso
    cases hr : d.reverse with
    | nil => exact hd (by simpa using hr)
    | cons y l =>
      rw [hr, List.takeWhile_cons] at h
      split at h
      · cases h
      · rename_i hy
        apply h4
        have : d.reverse.head? = some y := by rw [hr]; rfl
        rw [List.head?_reverse] at this
        rw [this]
        simp at hy
        rw [hy]
  · intro x hx
    unfold afterLast at hx
    have := List.mem_reverse.mp hx
    exact List.mem_reverse.mp ((List.takeWhile_sublist _).subset this)

/-- making a label of this package relative keeps the label -/
theorem relativeLabel_denotes (s dir : Bytes) (shorten : Bool) (hu : Usual s) (hd : dir ≠ []) (hc : c!":" ∉ dir) :
    parseRelative (relativeLabel false shorten dir s) (packageOf dir) = parseRelative s (packageOf dir) ∧
    (relativeLabel false shorten dir s = s ∨ ∃ t, relativeLabel false shorten dir s = c!":" :: t) := by
  unfold relativeLabel
  split
  · exact ⟨rfl, .inl rfl⟩
  · simp only [Bool.false_eq_true, if_false]
    have e : ∀ x, parse (b!"//" ++ x) = parseNoRepo [] (b!"//" ++ x) := by intro x; simp [parse, hasPrefix]
    have rel : ∀ t p, parseRelative (c!":" :: t) p = ⟨[], p, trimLeft c!":" t⟩ := by
      intro t p
      simp [parseRelative, hasPrefix, trimLeft]
    split
    · rename_i h
      refine ⟨?_, .inr ⟨_, rfl⟩⟩
      subst h
      obtain ⟨P, h1, h2, h3, h4, h5, hP⟩ := hu.1 dir rfl
      have hdp : dir = P := by
        rcases hP with h | ⟨t, _, _, h⟩
        · exact h
        · exact absurd (by rw [h]; simp) hc
      subst hdp
      rw [rel, parseRelative_abs _ _ (by simp [isAbs, hasPrefix]), e, parseNoRepo_short [] dir h1,
        pathBase_slashes dir h3 h4 hd, trimLeft_no_colon _ (fun h => h1 (pathBase_mem dir hd h4 _ h))]
      simp [packageOf, h5]
    · split
      · rename_i h
        obtain ⟨t, rfl⟩ := List.isPrefixOf_iff_prefix.mp h
        have hdrop : ((b!"//" ++ dir ++ b!":") ++ t).drop (b!"//" ++ dir).length = c!":" :: t := by
          rw [List.append_assoc, List.drop_left' rfl]; rfl
        rw [hdrop]
        refine ⟨?_, .inr ⟨_, rfl⟩⟩
        obtain ⟨P, h1, h2, h3, h4, h5, hP⟩ := hu.1 (dir ++ c!":" :: t) (by simp)
        have key : P = dir ∧ t ≠ [] ∧ c!":" ∉ t := by
          rcases hP with h | ⟨t', ht, ht2, h⟩
          · exact absurd (by rw [← h]; simp) h1
          · have := split2_some c!":" dir t hc
            rw [h, split2_some c!":" P t' h1] at this
            injection this with ha hb
            injection hb with hb
            exact ⟨ha, hb ▸ ht, hb ▸ ht2⟩
        obtain ⟨rfl, ht, ht2⟩ := key
        rw [rel, parseRelative_abs _ _ (by simp [isAbs, hasPrefix]), trimLeft_no_colon t ht2]
        have := e (P ++ c!":" :: t)
        have e2 : b!"//" ++ P ++ b!":" ++ t = b!"//" ++ (P ++ c!":" :: t) := by simp
        rw [e2, this, ← List.append_assoc, parseNoRepo_long [] P t h1 ht]
        simp [packageOf, h5]
      · exact ⟨rfl, .inl rfl⟩

/-- **C24 (labels).** With the default settings (leading slashes are kept), whether or not labels of the own package are made
relative: a string in a label attribute of a build file in directory `dir` denotes the same target before and after, provided
it is an absolute label of the usual form or no absolute label at all. -/
theorem C24_label_denotes (s dir : Bytes) (shorten : Bool) (hd : dir ≠ []) (hc : c!":" ∉ dir) (hu : Usual s) :
    parseRelative (shortenValue false shorten dir s) (packageOf dir) = parseRelative s (packageOf dir) := by
  have h := relativeLabel_denotes s dir shorten hu hd hc
  have hstrip : stripLabel false dir s = s := by simp [stripLabel]
  unfold shortenValue
  rw [hstrip]
  rcases h with ⟨h1, h2 | ⟨t, h2⟩⟩
  · rw [h2]; exact dropTarget_denotes s hu _
  · rw [h2] at h1 ⊢
    rw [dropTarget_rel _ (by simp [matchRepo, hasPrefix]), h1]

example : shortenValue false true b!"a/b" b!"//a/b:c" = b!":c" ∧ shortenValue false false b!"a/b" b!"//a/b:b" = b!"//a/b" ∧
    shortenValue false false b!"a" b!"@foo//:foo" = b!"@foo" := by decide

example : Usual b!"//a/b:b" := by
  refine ⟨fun body h => ?_, fun repo body h _ => by cases h⟩
  have : body = b!"a/b:b" := by injection h with _ h; injection h with _ h; exact h.symm
  subst this
  exact ⟨b!"a/b", by decide, by decide, by decide, by decide, by decide, .inr ⟨b!"b", by decide, by decide, by decide⟩⟩

/-- Outside the usual form the label can change: a colon in the target, a package with a trailing slash. -/
theorem C24_unusual_witness :
    shortenValue false false b!"p" b!"//x:y/z:z" = b!"//x:y/z" ∧
    shortenValue false false b!"p" b!"@foo//bar/:foo" = b!"@foo" ∧
    parseRelative b!"//x:y/z:z" b!"p" ≠ parseRelative b!"//x:y/z" b!"p" ∧
    parseRelative b!"@foo//bar/:foo" b!"p" ≠ parseRelative b!"@foo" b!"p" := by decide

/-! #### Lists of labels -/

/-- The label text an element of a label list stands for: a string, or the sum of two strings. -/
def text : Expr → Option Bytes
  | .string s => some s.value
  | .binary _ (.string a) _ o _ (.string b) => if o = b!"+" then some (a.value ++ b.value) else none
  | _ => none

/-- **C24 (join).** Joining a split label keeps its text; and what is not a sum of two string literals is left alone. -/
theorem C24_join (e : Expr) : text (joinLabel e) = text e ∧ (text e = none → joinLabel e = e) := by
  unfold joinLabel
  split
  · rename_i c s1 p o lb s2
    by_cases ho : o = b!"+"
    · subst ho
      simp only [ne_eq, not_true_eq_false, if_false]
      split
      · exact ⟨rfl, fun _ => rfl⟩
      · split
        · exact ⟨rfl, fun _ => rfl⟩
        · exact ⟨rfl, fun h => by simp [text] at h⟩
    · rw [if_pos ho]; exact ⟨rfl, fun _ => rfl⟩
  · exact ⟨rfl, fun _ => rfl⟩

/-- **C24 (elements).** Every element of a label list keeps denoting the same target: its text before and after are the same
label; an element without label text, and an element marked to be left alone, is not touched. -/
theorem C24_element (dir : Bytes) (shorten : Bool) (hd : dir ≠ []) (hc : c!":" ∉ dir) (x : Expr) :
    (text x = none → fixElement false shorten dir x = x) ∧
    (leaveAlone1 x = true → fixElement false shorten dir x = x) ∧
    (∀ s, text x = some s → Usual s → ∃ s', text (fixElement false shorten dir x) = some s' ∧
      parseRelative s' (packageOf dir) = parseRelative s (packageOf dir)) := by
  have hj := C24_join x
  refine ⟨?_, fun h => by simp [fixElement, h], ?_⟩
  · intro h
    unfold fixElement
    split
    · rfl
    · rw [hj.2 h]
      cases x <;> first | rfl | simp [text] at h
  · intro s hs hu
    unfold fixElement
    split
    · exact ⟨s, hs, rfl⟩
    · rw [← hj.1] at hs
      cases hx : joinLabel x with
      | string n =>
        rw [hx] at hs
        simp only [text, Option.some.injEq] at hs
        subst hs
        exact ⟨_, rfl, C24_label_denotes _ _ _ hd hc hu⟩
      | binary c a p o lb b => rw [hx] at hs; exact ⟨s, hs, rfl⟩
      | _ => rw [hx] at hs; simp [text] at hs

/-- **C24 (lists).** A list of labels keeps its length, order and layout; each element is rewritten on its own. -/
theorem C24_list (dir : Bytes) (shorten : Bool) (c p l e f) :
    fixContainer false shorten dir (.list c p l e f) = .list c p (l.map (fixElement false shorten dir)) e f := rfl

/-- The rewrite also shortens the parts of a longer sum, where they are not labels of their own: in
`"//foo:foo" + suffix` the first part becomes `"//foo"`, and the sum a different label for every suffix. -/
theorem C24_sum_witness (x : IdentN) :
    findAndModify (fixContainer false false b!"p") 5
      (.binary {} (.string { value := b!"//foo:foo" }) {} b!"+" false (.ident x))
      = .binary {} (.string { value := b!"//foo" }) {} b!"+" false (.ident x) ∧
    parseRelative (b!"//foo:foo" ++ b!"_test") b!"p" ≠ parseRelative (b!"//foo" ++ b!"_test") b!"p" := by
  refine ⟨rfl, by decide⟩

/-! #### The whole file -/

/-- Forget the value of an argument `name = ...` of a call of kind `kind` if it is a label attribute that is not denied. -/
def eraseArg (w : LabelConfig) (kind : Bytes) : Expr → Expr
  | .assign c (.ident i) p o lb r =>
    if w.isLabelArg i.name ∧ ¬ w.labelDenyList (kind ++ b!"." ++ i.name) then .assign c (.ident i) p o lb .nil
    else .assign c (.ident i) p o lb r
  | y => y

/-- Forget the values of all label attributes of a call. Everything else is kept. -/
def eraseLabels (w : LabelConfig) : Expr → Expr
  | .call c x p l e a b => .call c x p (l.map (eraseArg w (callKind x))) e a b
  | e => e

theorem kind_map (w : LabelConfig) (x : Expr) : kindNames (mapE (eraseLabels w) x) = kindNames x := by
  suffices ∀ n x, size x ≤ n → kindNames (mapE (eraseLabels w) x) = kindNames x from this _ x (Nat.le_refl _)
  intro n
  induction n with
  | zero => intro x h; have := size_pos x; omega
  | succ n ih =>
    intro x h
    cases x with
    | dot c y p q m => simp only [mapE, eraseLabels, kindNames, ih y (by simp only [size] at h; omega)]
    | _ => rfl

theorem erase_fixArg (w : LabelConfig) (dir kind : Bytes) (a : Expr) :
    eraseArg w kind (mapE (eraseLabels w) (fixArg w dir kind a)) = eraseArg w kind (mapE (eraseLabels w) a) := by
  unfold fixArg
  split
  · rename_i c i p o lb r
    split
    · rfl
    · split
      · rfl
      · rename_i h
        split
        · rfl
        · simp only [mapE, eraseLabels, eraseArg]
          have h' : w.isLabelArg i.name = true ∧ ¬ w.labelDenyList (kind ++ b!"." ++ i.name) = true := by
            simp only [Bool.or_eq_true, Bool.not_eq_true', not_or, Bool.not_eq_false] at h
            exact h
          rw [if_pos h', if_pos h']
  · rfl

theorem treeOk_string (n : StringN) : treeOk (.string n) := (treeOk_iff _).mpr ⟨trivial, by simp [slots]⟩

theorem fixElement_ok (st sh : Bool) (dir : Bytes) (x : Expr) (h : treeOk x) : treeOk (fixElement st sh dir x) := by
  unfold fixElement
  split
  · exact h
  · have hj : joinLabel x = x ∨ ∃ n, joinLabel x = .string n := by
      unfold joinLabel
      split
      · split
        · exact .inl rfl
        · split
          · exact .inl rfl
          · split
            · exact .inl rfl
            · exact .inr ⟨_, rfl⟩
      · exact .inl rfl
    rcases hj with hj | ⟨n, hj⟩
    · rw [hj]
      cases x <;> first | exact treeOk_string _ | exact h
    · rw [hj]; exact treeOk_string _

theorem fixOne_ok (st sh : Bool) (dir : Bytes) (x : Expr) (h : treeOk x) : treeOk (shortenLabel st sh dir (joinLabel x)) := by
  have hj : joinLabel x = x ∨ ∃ n, joinLabel x = .string n := by
    unfold joinLabel
    split
    · split
      · exact .inl rfl
      · split
        · exact .inl rfl
        · split
          · exact .inl rfl
          · exact .inr ⟨_, rfl⟩
    · exact .inl rfl
  rcases hj with hj | ⟨n, hj⟩
  · rw [hj]
    cases x <;> first | exact treeOk_string _ | exact h
  · rw [hj]; exact treeOk_string _

theorem fixContainer_ok (st sh : Bool) (dir : Bytes) (x : Expr) (h : treeOk x) : treeOk (fixContainer st sh dir x) := by
  have hs := (treeOk_iff x).mp h
  cases x with
  | list c p l e f =>
    refine (treeOk_iff _).mpr ⟨trivial, ?_⟩
    intro y hy
    obtain ⟨z, hz, rfl⟩ := List.mem_map.mp hy
    exact fixElement_ok _ _ _ z (hs.2 z hz)
  | set c p l e f =>
    refine (treeOk_iff _).mpr ⟨trivial, ?_⟩
    intro y hy
    obtain ⟨z, hz, rfl⟩ := List.mem_map.mp hy
    exact fixElement_ok _ _ _ z (hs.2 z hz)
  | _ => exact fixOne_ok st sh dir _ h

theorem findAndModify_ok (cb : Expr → Expr) (hcb : ∀ x, treeOk x → treeOk (cb x)) (n : Nat) :
    ∀ x, treeOk x → treeOk (findAndModify cb n x) := by
  induction n with
  | zero => intro x h; exact h
  | succ n ih =>
    intro x h
    have h1 := hcb x h
    rw [findAndModify]
    have hs := (treeOk_iff _).mp h1
    split
    · rename_i c a p o lb b heq
      rw [heq] at hs h1
      split
      · exact h1
      · refine (treeOk_iff _).mpr ⟨trivial, ?_⟩
        intro y hy
        simp only [slots, List.mem_cons, List.not_mem_nil, or_false] at hy
        rcases hy with rfl | rfl
        · exact ih a (hs.2 a (by simp [slots]))
        · exact ih b (hs.2 b (by simp [slots]))
    · rename_i c f p l e a b heq
      rw [heq] at hs h1
      split
      · rename_i i dc dp dl de df rest
        split
        · exact h1
        · refine (treeOk_iff _).mpr ⟨trivial, ?_⟩
          intro y hy
          simp only [slots, List.mem_cons] at hy
          rcases hy with rfl | rfl | hy
          · exact hs.2 _ (by simp [slots])
          · have hd := (treeOk_iff _).mp (hs.2 (.dict dc dp dl de df) (by simp [slots]))
            refine (treeOk_iff _).mpr ⟨trivial, ?_⟩
            intro z hz
            obtain ⟨kv, hkv, rfl⟩ := List.mem_map.mp hz
            have hk := (treeOk_iff _).mp (hd.2 kv hkv)
            split
            · rename_i kc k kp v
              refine (treeOk_iff _).mpr ⟨trivial, ?_⟩
              intro u hu
              simp only [slots, List.mem_cons, List.not_mem_nil, or_false] at hu
              rcases hu with rfl | rfl
              · exact hk.2 _ (by simp [slots])
              · exact ih v (hk.2 v (by simp [slots]))
            · exact hd.2 _ hkv
          · exact hs.2 y (by simp [slots, hy])
      · exact h1
    · exact h1

theorem fixArg_ok (w : LabelConfig) (dir kind : Bytes) (a : Expr) (h : treeOk a) : treeOk (fixArg w dir kind a) := by
  unfold fixArg
  split
  · split
    · exact h
    · split
      · exact h
      · split
        · exact h
        · rename_i c i p o lb r _ _ _
          have hs := (treeOk_iff _).mp h
          refine (treeOk_iff _).mpr ⟨trivial, ?_⟩
          intro y hy
          simp only [slots, List.mem_cons, List.not_mem_nil, or_false] at hy
          rcases hy with rfl | rfl
          · exact hs.2 _ (by simp [slots])
          · exact findAndModify_ok _ (fun x hx => fixContainer_ok _ _ _ x hx) _ r (hs.2 r (by simp [slots]))
  · exact h

theorem fixCall_kept (w : LabelConfig) (dir : Bytes) (v : Expr) (stk : List Expr) (h : treeOk v) :
    mapE (eraseLabels w) (fixCall w dir v stk) = mapE (eraseLabels w) v ∧ leafKept v (fixCall w dir v stk) ∧
      treeOk (fixCall w dir v stk) := by
  cases v with
  | call c x p l e a b =>
    simp only [fixCall]
    split
    · exact ⟨rfl, trivial, h⟩
    · refine ⟨?_, trivial, (treeOk_iff _).mpr ⟨trivial, ?_⟩⟩
      · simp only [mapE, mapL_eq, eraseLabels, List.map_map]
        congr 1
        apply List.map_congr_left
        intro y _
        have hk : callKind (mapE (eraseLabels w) x) = callKind x := by unfold callKind; rw [kind_map]
        simp only [Function.comp, hk]
        exact erase_fixArg w dir _ y
      · have hs := (treeOk_iff _).mp h
        intro y hy
        simp only [slots, List.mem_cons] at hy
        rcases hy with rfl | hy
        · exact hs.2 _ (by simp [slots])
        · obtain ⟨z, hz, rfl⟩ := List.mem_map.mp hy
          exact fixArg_ok _ _ _ z (hs.2 z (by simp [slots, hz]))
  | _ => exact ⟨rfl, leafKept_refl _, h⟩

/-- the file as a tree -/
abbrev tree (f : File) : Expr := f.toExpr

theorem walkMut_file (g : Expr → List Expr → Expr) (hg : ∀ c l, g (.file c l) [] = .file c l) (c : Comments) (l : List Expr) :
    ∃ l', walkMut g (.file c l) = .file c l' := by
  rw [walkMut_eq]
  obtain ⟨n, hn⟩ : ∃ n, size (.file c l) = n + 1 := ⟨size (.file c l) - 1, by have := size_pos (.file c l); omega⟩
  rw [hn, mutN_succ, hg]
  exact ⟨_, rfl⟩

theorem fixLabels_tree (w : LabelConfig) (f : File) : tree (fixLabels w f) = walkMut (fixCall w (pathDir f.path)) (tree f) := by
  obtain ⟨l', h⟩ := walkMut_file (fixCall w (pathDir f.path)) (fun _ _ => rfl) f.comments f.stmts
  have : f.toExpr = .file f.comments f.stmts := rfl
  unfold fixLabels tree
  rw [this, h]
  rfl

/-- **C24 (nothing else).** Apart from the values of label attributes of calls the file does not change. -/
theorem C24_label_attributes_only (w : LabelConfig) (f : File) (h : treeOk (tree f)) :
    mapE (eraseLabels w) (tree (fixLabels w f)) = mapE (eraseLabels w) (tree f) := by
  rw [fixLabels_tree]
  exact (editN_mapE (eraseLabels w) (fun (_ : Unit) x stk => ((), fixCall w (pathDir f.path) x stk, false))
    (fun _ v stk hv => fixCall_kept w _ v stk hv) _ () _ [] h).1

example : (fixLabels ⟨fun n => n == b!"deps", fun _ => false, false, false⟩
    { path := b!"a/BUILD", stmts := [.call {} (.ident { name := b!"r" }) {}
      [.assign {} (.ident { name := b!"deps" }) {} b!"=" false (.list {} {} [.string { value := b!"//x:x" }] {} false)] {} false false] }).stmts
    = [.call {} (.ident { name := b!"r" }) {}
      [.assign {} (.ident { name := b!"deps" }) {} b!"=" false (.list {} {} [.string { value := b!"//x" }] {} false)] {} false false] := rfl

end Verif.Props.FixLabels
