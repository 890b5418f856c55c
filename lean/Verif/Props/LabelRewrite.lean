import Verif.Props.FixLabels
import Verif.Props.Rewriter
import Verif.Props.Warn
/-
C24: what the label rewrite does, exactly.
-/
namespace Verif.Props.LabelRewrite
open Verif Verif.Syntax Verif.Walk Verif.Rewrite Verif.Labels Verif.Props.FixLabels Verif.Props.Rewriter

/-! ### Specification -/

/-- letters, digits and the underscore -/
def Word (s : Bytes) : Prop := ∀ x ∈ s, (48 ≤ x ∧ x ≤ 57) ∨ (65 ≤ x ∧ x ≤ 90) ∨ x = 95 ∨ (97 ≤ x ∧ x ≤ 122)

/-- what an absolute label begins with: `//` or `@repo//` -/
def Prefix (pre : Bytes) : Prop := pre = b!"//" ∨ ∃ r, r ≠ [] ∧ Word r ∧ pre = c!"@" :: r ++ b!"//"

/-- The short form of a label with a redundant target: `//a/b:b` is `//a/b`, and `@r//:r` is `@r`. -/
inductive Short : Bytes → Bytes → Prop
  | package (pre dir b : Bytes) : Prefix pre → b ≠ [] → (∀ x ∈ dir ++ b, x ≠ 10 ∧ x ≠ c!":") → c!"/" ∉ b →
      (dir = [] ∨ ∃ d, d ≠ [] ∧ d.head? ≠ some c!"/" ∧ dir = d ++ b!"/") → Short (pre ++ (dir ++ b) ++ c!":" :: b) (pre ++ (dir ++ b))
  | repo (r : Bytes) : r ≠ [] → Word r → Short (c!"@" :: r ++ b!"//:" ++ r) (c!"@" :: r)

/-- A label that is split in two: the first part begins with `//`, and there is no blank. -/
def Split (s1 s2 : StringN) : Prop := (∃ r, s1.value = b!"//" ++ r) ∧ (32 : UInt8) ∉ s1.value ∧ (32 : UInt8) ∉ s2.value

/-- A label, or a split label, with its new text and all comments. -/
inductive Label (f : Bytes → Bytes) : Expr → Expr → Prop
  | string (s : StringN) : Label f (.string s) (.string { s with value := f s.value })
  | joined (c : Comments) (s1 s2 : StringN) (p lb) : Split s1 s2 → Label f (.binary c (.string s1) p b!"+" lb (.string s2))
      (.string { s1 with
        value := f (s1.value ++ s2.value)
        comments := {
          before := c.before ++ s1.comments.before ++ s2.comments.before
          suffix := c.suffix ++ s1.comments.suffix ++ s2.comments.suffix
          after := c.after } })

/-- an element of a list of labels -/
inductive Element (f : Bytes → Bytes) : Expr → Expr → Prop
  | label (x y) : ¬ LeftAlone x → Label f x y → Element f x y
  | kept (x) : LeftAlone x ∨ (∀ y, ¬ Label f x y) → Element f x x

/-- neither a list, a string, a sum, nor `select({...})` -/
def Plain : Expr → Prop
  | .list .. => False
  | .set .. => False
  | .string _ => False
  | .binary _ _ _ o _ _ => o ≠ b!"+"
  | .call _ (.ident i) _ (.dict .. :: _) _ _ _ => i.name ≠ b!"select"
  | _ => True

mutual
/-- The value of a label attribute: labels, lists of labels, sums, and the values of a `select` are rewritten. -/
inductive Fixed (f : Bytes → Bytes) : Expr → Expr → Prop
  | label (x y) : Label f x y → Fixed f x y
  | list (c p l l' e m) : Forall2 (Element f) l l' → Fixed f (.list c p l e m) (.list c p l' e m)
  | set (c p l l' e m) : Forall2 (Element f) l l' → Fixed f (.set c p l e m) (.set c p l' e m)
  | sum (c a a' p lb b b') : (∀ y, ¬ Label f (.binary c a p b!"+" lb b) y) → Fixed f a a' → Fixed f b b' →
      Fixed f (.binary c a p b!"+" lb b) (.binary c a' p b!"+" lb b')
  | select (c i p dc dp l l' de df rest e m n) : i.name = b!"select" → Entries f l l' →
      Fixed f (.call c (.ident i) p (.dict dc dp l de df :: rest) e m n) (.call c (.ident i) p (.dict dc dp l' de df :: rest) e m n)
  | plain (x) : Plain x → Fixed f x x
/-- the entries of a `select` -/
inductive Entries (f : Bytes → Bytes) : List Expr → List Expr → Prop
  | nil : Entries f [] []
  | cons (c k p v v' l l') : Fixed f v v' → Entries f l l' → Entries f (.keyValue c k p v :: l) (.keyValue c k p v' :: l')
  | other (x l l') : (∀ c k p v, x ≠ .keyValue c k p v) → Entries f l l' → Entries f (x :: l) (x :: l')
end

/-- the name of a called function, as in `native.cc_library` -/
inductive Dotted : Expr → Bytes → Prop
  | ident (i : IdentN) : Dotted (.ident i) i.name
  | dot (c x p q n s) : Dotted x s → Dotted (.dot c x p q n) (s ++ b!"." ++ n)

/-- the kind of a call: the name of the function, empty if it has none -/
def Kind (x : Expr) (k : Bytes) : Prop := Dotted x k ∨ ((∀ s, ¬ Dotted x s) ∧ k = [])

/-- the argument is a label attribute that is to be rewritten -/
def Wanted (w : LabelConfig) (kind : Bytes) (i : IdentN) (a r : Expr) : Prop :=
  ¬ LeftAlone a ∧ ¬ LeftAlone r ∧ w.isLabelArg i.name = true ∧ w.labelDenyList (kind ++ b!"." ++ i.name) = false

/-- one argument of a call -/
inductive Arg (w : LabelConfig) (f : Bytes → Bytes) (kind : Bytes) : Expr → Expr → Prop
  | fixed (c i p o lb r r') : Wanted w kind i (.assign c (.ident i) p o lb r) r → Fixed f r r' →
      Arg w f kind (.assign c (.ident i) p o lb r) (.assign c (.ident i) p o lb r')
  | kept (a) : (∀ c i p o lb r, a = .assign c (.ident i) p o lb r → ¬ Wanted w kind i a r) → Arg w f kind a a

/-- A tree and the tree after the label rewrite: a node with a leave-alone comment stays with everything below it; the label attributes of the other calls are
rewritten; then the children, in turn. -/
inductive Rewritten (w : LabelConfig) (f : Bytes → Bytes) : Expr → Expr → Prop
  | alone (v) : LeftAlone v → Rewritten w f v v
  | call (c x p l l1 e a b k ks) : ¬ LeftAlone (.call c x p l e a b) → Kind x k → Forall2 (Arg w f k) l l1 →
      Forall2 (Rewritten w f) (x :: l1) ks → Rewritten w f (.call c x p l e a b) (withSlots (.call c x p l1 e a b) ks)
  | node (v ks) : ¬ LeftAlone v → (∀ c x p l e a b, v ≠ .call c x p l e a b) → Forall2 (Rewritten w f) (slots v) ks →
      Rewritten w f v (withSlots v ks)

/-! ### Redundant targets -/

theorem isWord_iff (x : UInt8) : isWord x = true ↔ (48 ≤ x ∧ x ≤ 57) ∨ (65 ≤ x ∧ x ≤ 90) ∨ x = 95 ∨ (97 ≤ x ∧ x ≤ 122) := by
  unfold isWord
  simp [or_assoc]

theorem takeWhile_word (r t : Bytes) (h : Word r) : (r ++ b!"//" ++ t).takeWhile isWord = r := by
  rw [List.append_assoc, List.takeWhile_append_of_pos fun x hx => (isWord_iff x).2 (h x hx)]
  simp [show isWord c!"/" = false by decide]

theorem matchRepo_at (r t : Bytes) (hr : r ≠ []) (h : Word r) :
    matchRepo (c!"@" :: r ++ b!"//" ++ t) = some (c!"@" :: r ++ b!"//", r, t) := by
  unfold matchRepo
  rw [if_neg (by simp [hasPrefix])]
  show (let w := (r ++ b!"//" ++ t).takeWhile isWord
    if w ≠ [] && hasPrefix ((r ++ b!"//" ++ t).drop w.length) b!"//" then
      some (c!"@" :: w ++ b!"//", w, (r ++ b!"//" ++ t).drop (w.length + 2)) else none) = _
  rw [takeWhile_word r t h]
  dsimp only
  have h1 : (r ++ b!"//" ++ t).drop r.length = b!"//" ++ t := by rw [List.append_assoc, List.drop_left' rfl]
  have h2 : (r ++ b!"//" ++ t).drop (r.length + 2) = t := by rw [List.drop_left' (by simp)]
  rw [h1, h2]
  simp [hr, hasPrefix]

theorem matchRepo_slashes (t : Bytes) : matchRepo (b!"//" ++ t) = some (b!"//", [], t) := by
  simp [matchRepo, hasPrefix]

theorem repo_of_prefix {pre : Bytes} (h : Prefix pre) : ∃ r, ∀ t, matchRepo (pre ++ t) = some (pre, r, t) := by
  rcases h with rfl | ⟨r, h1, h2, rfl⟩
  · exact ⟨_, matchRepo_slashes⟩
  · exact ⟨r, fun t => matchRepo_at r t h1 h2⟩

/-- how the expression splits a label: `g4` is the last component of the package -/
theorem matchBody_exact (pkg t : Bytes) (h1 : c!":" ∉ pkg) (h2 : (10 : UInt8) ∉ pkg) (h3 : pkg.head? ≠ some c!"/")
    (ht : t ≠ []) (ht2 : c!":" ∉ t) :
    (c!"/" ∈ t ∧ ∃ d g4, matchBody (pkg ++ c!":" :: t) = some (d, g4, [])) ∨
    (∃ dir g4, pkg = dir ++ g4 ∧ c!"/" ∉ g4 ∧ (dir = [] ∨ ∃ d, d ≠ [] ∧ d.head? ≠ some c!"/" ∧ dir = d ++ b!"/") ∧
      matchBody (pkg ++ c!":" :: t) = some (pkg, g4, t)) := by
  unfold matchBody
  cases hd : dirLength (pkg ++ c!":" :: t) with
  | none =>
    right
    simp only [Option.getD_none, List.drop_zero, List.take_zero, List.nil_append]
    rw [matchTail_colon pkg t h1 ht ht2]
    refine ⟨[], pkg, rfl, ?_, .inl rfl, rfl⟩
    have hn := dirLength_none hd
    intro hm
    cases pkg with
    | nil => cases hm
    | cons x l =>
      have hx : x ≠ c!"/" := by simpa using h3
      rcases List.mem_cons.mp hm with hm | hm
      · exact hx hm.symm
      · apply hn
        rw [List.takeWhile_append_of_pos]
        · simp only [List.cons_append, List.tail_cons, List.mem_append]; exact .inl hm
        · intro y hy; simp only [bne_iff_ne, ne_eq]; intro e; subst e; exact h2 hy
  | some n =>
    obtain ⟨a, rest, he, rfl, ha, hr, ha10⟩ := dirLength_some hd
    simp only [Option.getD_some]
    rcases List.append_eq_append_iff.mp he with ⟨m, hm1, hm2⟩ | ⟨m, hm1, hm2⟩
    · -- the slash is in the target
      left
      cases m with
      | nil => simp at hm2
      | cons x m =>
        simp only [List.cons_append, List.cons.injEq] at hm2
        obtain ⟨_, hm2⟩ := hm2
        have hrest : c!":" ∉ rest := by
          intro hc; apply ht2; rw [hm2]; simp [hc]
        have : (pkg ++ c!":" :: t).drop (a.length + 1) = rest := by
          rw [he, show a ++ c!"/" :: rest = (a ++ [c!"/"]) ++ rest from by simp, List.drop_left' (by simp)]
        rw [this, matchTail_none_colon rest hrest]
        exact ⟨by rw [hm2]; simp, _, _, rfl⟩
    · -- the slash is in the package
      right
      cases m with
      | nil => simp at hm2
      | cons x m =>
        simp only [List.cons_append, List.cons.injEq] at hm2
        obtain ⟨hx, hm2⟩ := hm2
        subst hx
        subst hm1
        have hm : c!":" ∉ m := by intro hc; apply h1; simp [hc]
        have e1 : ((a ++ c!"/" :: m) ++ c!":" :: t).drop (a.length + 1) = m ++ c!":" :: t := by
          rw [show (a ++ c!"/" :: m) ++ c!":" :: t = (a ++ [c!"/"]) ++ (m ++ c!":" :: t) from by simp, List.drop_left' (by simp)]
        have e2 : ((a ++ c!"/" :: m) ++ c!":" :: t).take (a.length + 1) = a ++ [c!"/"] := by
          rw [show (a ++ c!"/" :: m) ++ c!":" :: t = (a ++ [c!"/"]) ++ (m ++ c!":" :: t) from by simp, List.take_left' (by simp)]
        rw [e1, e2, matchTail_colon m t hm ht ht2]
        refine ⟨a ++ b!"/", m, by simp, ?_, .inr ⟨a, ha, ?_, rfl⟩, by simp⟩
        · intro hc
          apply hr
          rw [hm2, List.takeWhile_append_of_pos]
          · exact List.mem_append.mpr (.inl hc)
          · intro y hy; simp only [bne_iff_ne, ne_eq]; intro e; subst e; exact h2 (by simp [hy])
        · cases a with
          | nil => exact absurd rfl ha
          | cons y a => simpa using h3

theorem last_unique {d d' b b' : Bytes} (h : d ++ b = d' ++ b') (hb : c!"/" ∉ b) (hb' : c!"/" ∉ b')
    (hd : d = [] ∨ ∃ x, d = x ++ b!"/") (hd' : d' = [] ∨ ∃ x, d' = x ++ b!"/") : b = b' := by
  rcases hd with rfl | ⟨x, rfl⟩ <;> rcases hd' with rfl | ⟨y, rfl⟩
  · simpa using h
  · exact absurd (by rw [show b = [] ++ b from rfl, h]; simp) hb
  · exact absurd (by rw [show b' = [] ++ b' from rfl, ← h]; simp) hb'
  · have e1 := afterLast_split x b hb
    have e2 := afterLast_split y b' hb'
    have : x ++ c!"/" :: b = y ++ c!"/" :: b' := by simpa using h
    rw [this] at e1
    exact e1.symm.trans e2

/-- **C24**: a label with a redundant target loses it. -/
theorem C24_shortened {v u : Bytes} (h : Short v u) : dropTarget false v = u := by
  cases h with
  | package pre dir b hp hb hx hs hd =>
    obtain ⟨r, hr⟩ := repo_of_prefix hp
    have hc : c!":" ∉ dir ++ b := fun h => (hx _ h).2 rfl
    have hn : (10 : UInt8) ∉ dir ++ b := fun h => (hx _ h).1 rfl
    have hhead : (dir ++ b).head? ≠ some c!"/" := by
      rcases hd with rfl | ⟨d, h1, h2, rfl⟩
      · cases b with
        | nil => simp
        | cons y b => simp at hs ⊢; exact fun h => hs.1 h.symm
      · cases d with
        | nil => exact absurd rfl h1
        | cons y d => simpa using h2
    have hcb : c!":" ∉ b := fun h => hc (by simp [h])
    rw [List.append_assoc]
    rcases matchBody_exact (dir ++ b) b hc hn hhead hb hcb with ⟨h, _⟩ | ⟨d', g4, h1, h2, h3, h4⟩
    · exact absurd h hs
    · have : g4 = b := last_unique h1.symm h2 hs (h3.imp id fun ⟨d, _, _, h⟩ => ⟨d, h⟩) (hd.imp id fun ⟨d, _, _, h⟩ => ⟨d, h⟩)
      subst this
      rw [dropTarget_match (hr _) h4, if_pos (by simp [hb])]
  | repo r hr hw =>
    have e : c!"@" :: r ++ b!"//:" ++ r = c!"@" :: r ++ b!"//" ++ ([] ++ c!":" :: r) := by simp
    have hsl := isWord_not_slash (w := r) fun x hx => (isWord_iff x).2 (hw x hx)
    have hcl : c!":" ∉ r := fun h => absurd ((isWord_iff _).2 (hw _ h)) (by decide)
    rw [e]
    rcases matchBody_exact [] r (by simp) (by simp) (by simp) hr hcl with ⟨h, _⟩ | ⟨d', g4, h1, _, _, h4⟩
    · exact absurd h hsl.1
    · have : g4 = [] := (List.append_eq_nil_iff.1 h1.symm).2
      subst this
      rw [dropTarget_match (matchRepo_at r _ hr hw) h4]
      simp [hr]

/-- **C24**: nothing else is changed in a label of the usual form. -/
theorem C24_only_shortened (v : Bytes) (hu : Usual v) (h : dropTarget false v ≠ v) : Short v (dropTarget false v) := by
  cases hm : matchRepo v with
  | none => exact absurd (dropTarget_rel v hm) h
  | some m =>
    obtain ⟨pre, repo, body⟩ := m
    have hs := matchRepo_some hm
    have hw : Word repo := by
      unfold matchRepo at hm
      split at hm
      · cases hm; intro x hx; cases hx
      · split at hm
        · dsimp only at hm
          split at hm
          · cases hm
            intro x hx
            exact (isWord_iff x).1 (Props.FixLabels.mem_takeWhile hx)
          · cases hm
        · cases hm
    have hub : UsualBody body := by
      rcases hs with ⟨_, _, h⟩ | ⟨_, h1, _, _, h⟩
      · exact hu.1 _ h
      · exact hu.2 _ _ h h1
    have hv : v = pre ++ body := by
      rcases hs with ⟨rfl, _, h⟩ | ⟨_, _, _, rfl, h⟩ <;> exact h
    have hpre : Prefix pre := by
      rcases hs with ⟨rfl, _, _⟩ | ⟨h1, _, _, h, _⟩
      · exact .inl rfl
      · exact .inr ⟨repo, h1, hw, h⟩
    obtain ⟨P, h1, h2, h3, h4, _, hP⟩ := hub
    rcases hP with rfl | ⟨t, ht, ht2, rfl⟩
    · obtain ⟨d, g4, hb⟩ := matchBody_pkg body h1
      refine absurd ?_ h
      rw [dropTarget_match hm hb, if_neg (by simp), if_neg (by simp; intro h _; exact h)]
    · rcases matchBody_exact P t h1 h2 h3 ht ht2 with ⟨_, d, g4, hb⟩ | ⟨dir, g4, hP, hg, hd, hb⟩
      · refine absurd ?_ h
        rw [dropTarget_match hm hb, if_neg (by simp), if_neg (by simp; intro h _; exact h)]
      · rw [dropTarget_match hm hb] at h ⊢
        split
        · rename_i hc
          simp only [Bool.and_eq_true, decide_eq_true_eq, beq_iff_eq] at hc
          obtain ⟨_, rfl⟩ := hc
          subst hP
          have := Short.package pre dir g4 hpre ht (fun x hx => ⟨fun e => h2 (e ▸ hx), fun e => h1 (e ▸ hx)⟩) hg hd
          rw [hv, ← List.append_assoc]
          exact this
        · rename_i hc
          rw [if_neg hc] at h
          split
          · rename_i hc2
            simp only [Bool.and_eq_true, decide_eq_true_eq, beq_iff_eq] at hc2
            obtain ⟨⟨hr, hg4⟩, rfl⟩ := hc2
            subst hg4
            have hP0 : P = [] := by
              rcases hd with rfl | ⟨d, _, _, rfl⟩
              · simpa using hP
              · exact absurd (by rw [hP]; simp) h4
            subst hP0
            rcases hs with ⟨_, h0, _⟩ | ⟨_, _, _, rfl, _⟩
            · exact absurd h0 (by simpa using hr)
            · rw [hv]
              have := Short.repo repo (by simpa using hr) hw
              simpa using this
          · rename_i hc2
            rw [if_neg hc2] at h
            exact absurd rfl h

/-! ### Own package, leading slashes, the directory -/

/-- **C24**: with `shorten`, a label of the own package becomes `:target`; every other label is treated as without. -/
theorem C24_own_package (dir v : Bytes) :
    (∀ t, v = b!"//" ++ dir ++ b!":" ++ t → shortenValue false true dir v = c!":" :: t) ∧
    (∀ d b, v = b!"//" ++ dir → dir = d ++ b → b ≠ [] → c!"/" ∉ b → (d = [] ∨ ∃ x, d = x ++ b!"/") → shortenValue false true dir v = c!":" :: b) ∧
    ((∀ t, v ≠ b!"//" ++ dir ++ b!":" ++ t) → v ≠ b!"//" ++ dir → shortenValue false true dir v = dropTarget false v) ∧
    shortenValue false false dir v = dropTarget false v := by
  have hcol : ∀ t, dropTarget false (c!":" :: t) = c!":" :: t := fun t => dropTarget_rel _ (by simp [matchRepo, hasPrefix])
  have hstrip : stripLabel false dir v = v := by simp [stripLabel]
  unfold shortenValue
  rw [hstrip]
  unfold relativeLabel
  simp only [Bool.not_true, Bool.false_eq_true, if_false, Bool.not_false, if_true]
  refine ⟨?_, ?_, ?_, trivial⟩
  · rintro t rfl
    rw [if_neg (by
      intro h
      have := congrArg List.length h
      simp at this), if_pos (show hasPrefix _ _ = true from List.isPrefixOf_iff_prefix.2 ⟨t, rfl⟩)]
    rw [List.append_assoc (b!"//" ++ dir), List.drop_left' rfl]
    exact hcol t
  · rintro d b rfl rfl hb hs hd
    rw [if_pos rfl, hcol]
    rcases hd with rfl | ⟨x, rfl⟩
    · have := pathBase_split b!"/" b hs hb
      simpa using congrArg (c!":" :: ·) this
    · have := pathBase_split (b!"//" ++ x) b hs hb
      have e : b!"//" ++ (x ++ b!"/" ++ b) = (b!"//" ++ x) ++ c!"/" :: b := by simp
      rw [e, this]
  · intro h1 h2
    rw [if_neg h2, if_neg]
    intro h
    obtain ⟨t, ht⟩ := List.isPrefixOf_iff_prefix.1 h
    exact h1 t ht.symm

/-- **C24**: with `strip`, the leading slashes of a label are dropped, but not those of `//:target` outside the top directory. -/
theorem C24_strip (dir v : Bytes) :
    (∀ r, v = b!"//" ++ r → (dir = b!"." ∨ r.head? ≠ some c!":") → stripLabel true dir v = r) ∧
    ((∀ r, v = b!"//" ++ r → ¬ (dir = b!"." ∨ r.head? ≠ some c!":")) → stripLabel true dir v = v) ∧ stripLabel false dir v = v := by
  have hp : ∀ r : Bytes, hasPrefix (b!"//" ++ r) b!"//:" = true ↔ r.head? = some c!":" := by
    intro r
    cases r with
    | nil => simp [hasPrefix]
    | cons x r => simp [hasPrefix]; exact ⟨Eq.symm, Eq.symm⟩
  refine ⟨?_, ?_, by simp [stripLabel]⟩
  · rintro r rfl h
    have : (dir == b!"." || !hasPrefix (b!"//" ++ r) b!"//:") = true := by
      rw [Bool.or_eq_true, beq_iff_eq, Bool.not_eq_true', Bool.eq_false_iff, ne_eq, hp]
      exact h
    unfold stripLabel
    rw [this]
    simp [hasPrefix]
  · intro h
    unfold stripLabel
    split
    · rename_i hc
      rw [Bool.and_eq_true, Bool.and_eq_true, Bool.or_eq_true, beq_iff_eq, Bool.not_eq_true', Bool.eq_false_iff] at hc
      obtain ⟨r, rfl⟩ := List.isPrefixOf_iff_prefix.1 hc.1.2
      exact absurd (hc.2.imp id fun h' => fun e => h' ((hp r).2 e)) (h r rfl)
    · rfl

/-- **C24**: the directory of a build file: what comes before the last slash; `.` for a file without one, `/` for one in the root. -/
theorem C24_dir (d b : Bytes) (hb : c!"/" ∉ b) : pathDir b = b!"." ∧ pathDir (c!"/" :: b) = b!"/" ∧ (d ≠ [] → pathDir (d ++ b!"/" ++ b) = d) := by
  have hdrop : ∀ x : Bytes, ((x ++ b).reverse.dropWhile (· != c!"/")) = x.reverse.dropWhile (· != c!"/") := by
    intro x
    rw [List.reverse_append, List.dropWhile_append_of_pos]
    intro y hy
    simp only [bne_iff_ne, ne_eq]
    intro e
    subst e
    exact hb (by simpa using hy)
  unfold pathDir
  refine ⟨?_, ?_, ?_⟩
  · have := hdrop []
    simp at this
    simp [this]
  · have := hdrop b!"/"
    simp only [List.cons_append, List.nil_append] at this
    rw [this]
    decide
  · intro hd
    rw [hdrop]
    have : ((d ++ b!"/").reverse.dropWhile (· != c!"/")).reverse = d ++ b!"/" := by
      rw [List.reverse_append]
      simp
    rw [this]
    dsimp only
    rw [if_neg (by simp), if_neg (by
      intro h
      have := congrArg List.length h
      simp at this
      exact hd this)]
    simp

/-! ### The tree -/

theorem blank_iff (s : Bytes) : contains s b!" " = true ↔ (32 : UInt8) ∈ s := by
  rw [Props.Warn.contains_iff]
  constructor
  · rintro ⟨a, b, rfl⟩; simp
  · intro h
    obtain ⟨a, b, rfl⟩ := List.append_of_mem h
    exact ⟨a, b, by simp⟩

theorem label_iff (st sh : Bool) (dir : Bytes) (x : Expr) :
    Label (shortenValue st sh dir) x (shortenLabel st sh dir (joinLabel x)) ∨
      ((∀ y, ¬ Label (shortenValue st sh dir) x y) ∧ shortenLabel st sh dir (joinLabel x) = x) := by
  unfold joinLabel
  split
  · rename_i c s1 p o lb s2
    have no : ∀ {P : Prop}, (o = b!"+" → ¬ Split s1 s2) → (∀ y, ¬ Label (shortenValue st sh dir) (.binary c (.string s1) p o lb (.string s2)) y) := by
      intro _ h y hy
      cases hy
      exact h rfl (by assumption)
    split
    · rename_i h
      exact .inr ⟨no (P := True) fun h' => absurd h' h, rfl⟩
    · rename_i ho
      have ho : o = b!"+" := Classical.byContradiction ho
      split
      · rename_i h
        refine .inr ⟨no (P := True) fun _ hs => ?_, rfl⟩
        rw [Bool.or_eq_true, blank_iff] at h
        rcases h with h | h
        · obtain ⟨r, hr⟩ := hs.1
          rw [hr] at h
          simp [hasPrefix] at h
        · exact hs.2.1 h
      · rename_i h1
        split
        · rename_i h
          exact .inr ⟨no (P := True) fun _ hs => hs.2.2 ((blank_iff _).1 h), rfl⟩
        · rename_i h2
          rw [Bool.or_eq_true, blank_iff, not_or] at h1
          rw [blank_iff] at h2
          have hs : Split s1 s2 := by
            refine ⟨?_, h1.2, h2⟩
            have := h1.1
            simp only [Bool.not_eq_true', Bool.not_eq_false] at this
            obtain ⟨r, hr⟩ := List.isPrefixOf_iff_prefix.1 this
            exact ⟨r, hr.symm⟩
          subst ho
          exact .inl (.joined c s1 s2 p lb hs)
  · rename_i hno
    cases x with
    | string s => exact .inl (.string s)
    | _ =>
      refine .inr ⟨?_, rfl⟩
      intro y hy
      cases hy
      try exact hno _ _ _ _ _ _ rfl

theorem element_rel (st sh : Bool) (dir : Bytes) (x : Expr) : Element (shortenValue st sh dir) x (fixElement st sh dir x) := by
  unfold fixElement
  split
  · rename_i h
    exact .kept _ (.inl ((leaveAlone1_iff _).1 h))
  · rename_i h
    have h : ¬ LeftAlone x := fun h' => h ((leaveAlone1_iff _).2 h')
    rcases label_iff st sh dir x with h' | ⟨h1, h2⟩
    · exact .label _ _ h h'
    · rw [h2]; exact .kept _ (.inr h1)

theorem elements_rel (st sh : Bool) (dir : Bytes) : ∀ l : List Expr, Forall2 (Element (shortenValue st sh dir)) l (l.map (fixElement st sh dir))
  | [] => .nil
  | x :: l => .cons (element_rel st sh dir x) (elements_rel st sh dir l)

theorem findAndModify_rel (st sh : Bool) (dir : Bytes) : ∀ (n : Nat) (x : Expr), size x ≤ n →
    Fixed (shortenValue st sh dir) x (findAndModify (fixContainer st sh dir) n x)
  | 0, x, h => by have := size_pos x; omega
  | n + 1, x, h => by
    have lab : (∀ c p l e m, x ≠ .list c p l e m) → (∀ c p l e m, x ≠ .set c p l e m) →
        fixContainer st sh dir x = shortenLabel st sh dir (joinLabel x) := by
      intro h1 h2
      cases x <;> first | rfl | exact absurd rfl (h1 _ _ _ _ _) | exact absurd rfl (h2 _ _ _ _ _)
    rw [findAndModify]
    cases x with
    | list c p l e m => exact .list _ _ _ _ _ _ (elements_rel st sh dir l)
    | set c p l e m => exact .set _ _ _ _ _ _ (elements_rel st sh dir l)
    | string s => exact .label _ _ (.string s)
    | binary c a p o lb b =>
      rw [lab (by simp) (by simp)]
      rcases label_iff st sh dir (.binary c a p o lb b) with h' | ⟨h1, h2⟩
      · generalize shortenLabel st sh dir (joinLabel (.binary c a p o lb b)) = y at h'
        cases h' with
        | joined _ s1 s2 _ _ hs => exact .label _ _ (.joined c s1 s2 p lb hs)
      · rw [h2]
        dsimp only
        split
        · rename_i ho
          exact .plain _ ho
        · rename_i ho
          have ho : o = b!"+" := Classical.byContradiction ho
          subst ho
          simp only [size] at h
          exact .sum c a _ p lb b _ h1 (findAndModify_rel st sh dir n a (by omega)) (findAndModify_rel st sh dir n b (by omega))
    | call c f p l e a b =>
      rw [lab (by simp) (by simp)]
      simp only [joinLabel, shortenLabel]
      split
      · rename_i i dc dp dl de df rest
        split
        · rename_i hn
          exact .plain _ hn
        · rename_i hn
          refine .select _ _ _ _ _ _ _ _ _ _ _ _ _ (Classical.byContradiction hn) ?_
          have hsz : ∀ kv ∈ dl, size kv ≤ n := by
            intro kv hkv
            have h1 := size_slot_lt (v := .call c (.ident i) p (.dict dc dp dl de df :: rest) e a b) (x := .dict dc dp dl de df) (by simp [slots])
            have h2 := size_slot_lt (v := .dict dc dp dl de df) (x := kv) (by simpa [slots] using hkv)
            omega
          clear h lab
          induction dl with
          | nil => exact .nil
          | cons kv dl ih =>
            have ih := ih fun kv hkv => hsz kv (by simp [hkv])
            rw [List.map_cons]
            cases kv with
            | keyValue kc k kp v =>
              have := hsz (.keyValue kc k kp v) (by simp)
              simp only [size] at this
              exact .cons _ _ _ _ _ _ _ (findAndModify_rel st sh dir n v (by omega)) ih
            | _ => exact .other _ _ _ (by simp) ih
      · rename_i hno
        refine .plain _ ?_
        unfold Plain
        split
        · rename_i heq; cases heq
        · rename_i heq; cases heq
        · rename_i heq; cases heq
        · rename_i heq; cases heq
        · rename_i heq; cases heq; exact absurd rfl (hno _ _ _ _ _ _ _ rfl)
        · trivial
    | _ => exact .plain _ trivial

theorem kind_iff (x : Expr) : Kind x (callKind x) := by
  suffices ∀ n x, size x ≤ n → (∀ l, kindNames x = some l → l ≠ [] ∧ Dotted x (joinWith c!"." l)) ∧ (kindNames x = none → ∀ s, ¬ Dotted x s) by
    unfold callKind Kind
    cases h : kindNames x with
    | some l => exact .inl ((this _ x (Nat.le_refl _)).1 l h).2
    | none => exact .inr ⟨(this _ x (Nat.le_refl _)).2 h, rfl⟩
  have hj : ∀ (l : List Bytes) (n : Bytes), l ≠ [] → joinWith c!"." (l ++ [n]) = joinWith c!"." l ++ b!"." ++ n := by
    intro l n hl
    induction l with
    | nil => exact absurd rfl hl
    | cons w l ih =>
      cases l with
      | nil => simp [joinWith]
      | cons w2 l =>
        have := ih (by simp)
        simp only [List.cons_append] at this ⊢
        simp only [joinWith]
        rw [this]
        simp
  intro n
  induction n with
  | zero => intro x h; have := size_pos x; omega
  | succ n ih =>
    intro x h
    cases x with
    | ident i =>
      refine ⟨?_, by simp [kindNames]⟩
      intro l hl
      simp only [kindNames, Option.some.injEq] at hl
      subst hl
      exact ⟨by simp, by simpa [joinWith] using Dotted.ident i⟩
    | dot c y p q m =>
      simp only [size] at h
      have := ih y (by omega)
      simp only [kindNames]
      constructor
      · intro l hl
        cases hk : kindNames y with
        | none => rw [hk] at hl; cases hl
        | some l' =>
          rw [hk] at hl
          simp only [Option.map_some, Option.some.injEq] at hl
          subst hl
          obtain ⟨h1, h2⟩ := this.1 l' hk
          exact ⟨by simp, by rw [hj l' m h1]; exact .dot _ _ _ _ _ _ h2⟩
      · intro hl s hs
        cases hk : kindNames y with
        | some l' => rw [hk] at hl; cases hl
        | none => cases hs with | dot _ _ _ _ _ s hs => exact this.2 hk s hs
    | _ =>
      refine ⟨by simp [kindNames], ?_⟩
      intro _ s hs
      cases hs

theorem arg_rel (w : LabelConfig) (dir kind : Bytes) (a : Expr) : Arg w (shortenValue w.strip w.shorten dir) kind a (fixArg w dir kind a) := by
  unfold fixArg
  split
  · rename_i c i p o lb r
    have no : ¬ Wanted w kind i (.assign c (.ident i) p o lb r) r →
        Arg w (shortenValue w.strip w.shorten dir) kind (.assign c (.ident i) p o lb r) (.assign c (.ident i) p o lb r) := by
      intro h
      refine .kept _ ?_
      intro _ _ _ _ _ _ he
      cases he
      exact h
    split
    · rename_i h; exact no fun h' => h'.1 ((leaveAlone1_iff _).1 h)
    · rename_i h1
      split
      · rename_i h
        refine no fun h' => ?_
        rw [h'.2.2.1, h'.2.2.2] at h
        simp at h
      · rename_i h2
        split
        · rename_i h; exact no fun h' => h'.2.1 ((leaveAlone1_iff _).1 h)
        · rename_i h3
          simp only [Bool.or_eq_true, Bool.not_eq_true', not_or, Bool.not_eq_false, Bool.not_eq_true] at h2
          exact .fixed _ _ _ _ _ _ _ ⟨fun h => h1 ((leaveAlone1_iff _).2 h), fun h => h3 ((leaveAlone1_iff _).2 h), h2.1, h2.2⟩
            (findAndModify_rel _ _ _ _ _ (Nat.le_refl _))
  · rename_i hno
    exact .kept _ fun c i p o lb r h => absurd h (hno c i p o lb r)

/-! the rewrite does not make the tree larger -/

theorem label_size {f : Bytes → Bytes} {x y : Expr} (h : Label f x y) : size y ≤ size x := by
  cases h <;> simp [size]

theorem element_size {f : Bytes → Bytes} {x y : Expr} (h : Element f x y) : size y ≤ size x := by
  cases h with
  | label _ _ h => exact label_size h
  | kept => exact Nat.le_refl _

theorem forall2_size {R : Expr → Expr → Prop} (hR : ∀ x y, R x y → size y ≤ size x) {l l' : List Expr} (h : Forall2 R l l') : sizeL l' ≤ sizeL l := by
  induction h with
  | nil => exact Nat.le_refl _
  | cons h _ ih => have := hR _ _ h; simp only [sizeL]; omega

mutual
theorem fixed_size {f : Bytes → Bytes} : ∀ {x y : Expr}, Fixed f x y → size y ≤ size x
  | _, _, .label _ _ h => label_size h
  | _, _, .list _ _ _ _ _ _ h => by
    have := forall2_size (fun _ _ => element_size) h
    simp only [size]; omega
  | _, _, .set _ _ _ _ _ _ h => by
    have := forall2_size (fun _ _ => element_size) h
    simp only [size]; omega
  | _, _, .sum _ _ _ _ _ _ _ _ h1 h2 => by
    have := fixed_size h1
    have := fixed_size h2
    simp only [size]; omega
  | _, _, .select _ _ _ _ _ _ _ _ _ _ _ _ _ _ h => by
    have := entries_size h
    simp only [size, sizeL]; omega
  | _, _, .plain _ _ => Nat.le_refl _
theorem entries_size {f : Bytes → Bytes} : ∀ {l l' : List Expr}, Entries f l l' → sizeL l' ≤ sizeL l
  | _, _, .nil => Nat.le_refl _
  | _, _, .cons _ _ _ _ _ _ _ h1 h2 => by
    have := fixed_size h1
    have := entries_size h2
    simp only [size, sizeL]; omega
  | _, _, .other _ _ _ _ h => by
    have := entries_size h
    simp only [sizeL]; omega
end

theorem arg_size {w : LabelConfig} {f : Bytes → Bytes} {k : Bytes} {x y : Expr} (h : Arg w f k x y) : size y ≤ size x := by
  cases h with
  | fixed _ _ _ _ _ _ _ _ h => have := fixed_size h; simp only [size]; omega
  | kept => exact Nat.le_refl _

theorem args_rel (w : LabelConfig) (dir kind : Bytes) : ∀ l : List Expr, Forall2 (Arg w (shortenValue w.strip w.shorten dir) kind) l (l.map (fixArg w dir kind))
  | [] => .nil
  | x :: l => .cons (arg_rel w dir kind x) (args_rel w dir kind l)

theorem walk_rel (w : LabelConfig) (dir : Bytes) : ∀ (n : Nat) (v : Expr) (stk : List Expr), size v ≤ n → treeOk v → (∀ x ∈ stk, ¬ LeftAlone x) →
    Rewritten w (shortenValue w.strip w.shorten dir) v (mutN (fixCall w dir) n v stk)
  | 0, v, _, h, _, _ => by have := size_pos v; omega
  | n + 1, v, stk, h, hok, hstk => by
    by_cases hal : LeftAlone v
    · rw [shielded (fixCall w dir) (fixCall_protected w dir) _ v stk hok ⟨v, by simp, hal⟩]
      exact .alone v hal
    · have hno : ¬ leaveAlone stk v = true := by
        rw [leaveAlone_iff]
        rintro ⟨x, hx, hl⟩
        rcases List.mem_append.1 hx with hx | hx
        · exact hstk x hx hl
        · rw [List.mem_singleton] at hx; subst hx; exact hal hl
      rw [mutN_succ]
      cases hv : v.isNil with
      | true =>
        rw [if_pos rfl, eq_nil_of_isNil hv]
        have := Rewritten.node (w := w) (f := shortenValue w.strip w.shorten dir) .nil [] (by rw [← eq_nil_of_isNil hv]; exact hal) (by simp) .nil
        exact this
      | false =>
        rw [if_neg (by simp)]
        have hkids : ∀ l : List Expr, (∀ x ∈ l, size x ≤ n ∧ treeOk x) → ∀ u : Expr, ¬ LeftAlone u →
            Forall2 (Rewritten w (shortenValue w.strip w.shorten dir)) l (l.map fun x => mutN (fixCall w dir) n x (stk ++ [u])) := by
          intro l hl u hu
          refine forall2_map_right l _ fun x hx => walk_rel w dir n x _ (hl x hx).1 (hl x hx).2 ?_
          intro y hy
          rcases List.mem_append.1 hy with hy | hy
          · exact hstk y hy
          · rw [List.mem_singleton] at hy; subst hy; exact hu
        have hslot := ((treeOk_iff v).1 hok).2
        by_cases hc : ∃ c x p l e a b, v = .call c x p l e a b
        · obtain ⟨c, x, p, l, e, a, b, rfl⟩ := hc
          have hfc : fixCall w dir (.call c x p l e a b) stk = .call c x p (l.map (fixArg w dir (callKind x))) e a b := by
            simp only [fixCall]
            rw [if_neg hno]
          rw [hfc]
          refine .call c x p l _ e a b (callKind x) _ hal (kind_iff x) (args_rel w dir _ l) ?_
          refine hkids (x :: l.map (fixArg w dir (callKind x))) ?_ _ ?_
          · intro y hy
            rcases List.mem_cons.1 hy with rfl | hy
            · exact ⟨by simp only [size] at h; omega, hslot _ (by simp [slots])⟩
            · obtain ⟨z, hz, rfl⟩ := List.mem_map.1 hy
              have h1 := arg_size (arg_rel w dir (callKind x) z)
              have h2 := size_slot_lt (v := .call c x p l e a b) (x := z) (by simp [slots, hz])
              exact ⟨by omega, fixArg_ok _ _ _ z (hslot z (by simp [slots, hz]))⟩
          · exact hal
        · have hfc : fixCall w dir v stk = v := by
            unfold fixCall
            split
            · exact absurd ⟨_, _, _, _, _, _, _, rfl⟩ hc
            · rfl
          rw [hfc]
          refine .node v _ hal (fun c x p l e a b he => hc ⟨c, x, p, l, e, a, b, he⟩) (hkids _ ?_ v hal)
          intro x hx
          have := size_slot_lt hx
          exact ⟨by omega, hslot x hx⟩

/-- **C24**: what the label rewrite does to a file: in every call without a leave-alone comment on it or around it, the labels in the label attributes are
replaced by their new form (`C24_shortened`, `C24_only_shortened`, `C24_own_package`, `C24_strip`), split labels being joined first; nothing else changes. The
directory is that of the file (`C24_dir`). -/
theorem C24_file (w : LabelConfig) (f : File) (h : treeOk (tree f)) :
    Rewritten w (shortenValue w.strip w.shorten (pathDir f.path)) (tree f) (tree (fixLabels w f)) := by
  rw [fixLabels_tree, walkMut_eq]
  exact walk_rel w _ _ _ [] (Nat.le_refl _) h (by simp)

example : Short b!"@my_repo//a/b:b" b!"@my_repo//a/b" := by
  refine Short.package b!"@my_repo//" b!"a/" b!"b" (.inr ⟨b!"my_repo", by decide, ?_, rfl⟩) (by decide) (by decide) (by decide)
    (.inr ⟨b!"a", by decide, by decide, rfl⟩)
  unfold Word
  decide

/-- an attribute with a leave-alone comment is not touched, the other one is -/
theorem C24_file_example :
    let l := Expr.list {} {} [.binary {} (.string { value := b!"//x" }) {} b!"+" false (.string { value := b!":x" }), .string { value := b!"@r//:r" }] {} false
    let l' := Expr.list {} {} [.string { value := b!"//x" }, .string { value := b!"@r" }] {} false
    let c : Comments := { suffix := [⟨{}, b!"# buildifier: leave-alone"⟩] }
    let call := fun (x y : Expr) => Expr.call {} (.dot {} (.ident { name := b!"native" }) {} {} b!"r") {}
      [.assign {} (.ident { name := b!"deps" }) {} b!"=" false x, .assign c (.ident { name := b!"deps" }) {} b!"=" false y] {} false false
    (fixLabels ⟨fun n => n == b!"deps", fun s => s == b!"q.deps", false, false⟩ { path := b!"a/BUILD", stmts := [call l l] }).stmts = [call l' l] := rfl

end Verif.Props.LabelRewrite
