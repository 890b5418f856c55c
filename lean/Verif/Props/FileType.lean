import Verif.Model.Buildifier
import Verif.Props.FixLabels
/-
C57: file types.
-/
namespace Verif.Props.FileType
open Verif Verif.Buildifier

def Ends (n s : Bytes) : Prop := ∃ a, n = a ++ s
def Starts (n s : Bytes) : Prop := ∃ a, n = s ++ a

def ModuleName (n : Bytes) : Prop := n = b!"module.bazel" ∨ Ends n b!".module.bazel"
def BuildName (n : Bytes) : Prop := n = b!"build" ∨ Starts n b!"build." ∨ Ends n b!".build"
def WorkspaceName (n : Bytes) : Prop := n = b!"workspace" ∨ Starts n b!"workspace." ∨ Ends n b!".workspace"

/-- The type of a file whose name in lower case, without directory and without the suffix `.oss`, is `n`. -/
inductive TypeOf (n : Bytes) : FileType → Prop
  | module : ModuleName n → TypeOf n .module
  | bzl : Ends n b!".bzl" → TypeOf n .bzl
  | sky : Ends n b!".sky" → TypeOf n .default
  | build : ¬ ModuleName n → ¬ Ends n b!".bzl" → ¬ Ends n b!".sky" → BuildName n → TypeOf n .build
  | workspace : ¬ ModuleName n → ¬ Ends n b!".bzl" → ¬ Ends n b!".sky" → ¬ BuildName n → WorkspaceName n → TypeOf n .workspace
  | default : ¬ ModuleName n → ¬ Ends n b!".bzl" → ¬ Ends n b!".sky" → ¬ BuildName n → ¬ WorkspaceName n → TypeOf n .default

/-- `n` is the name of `filename` that counts -/
def NameOf (filename n : Bytes) : Prop :=
  toLower (pathBase filename) = n ++ b!".oss" ∨ (toLower (pathBase filename) = n ∧ ¬ Ends n b!".oss")

/-! ### proofs -/

theorem afterLast_app (c : UInt8) (a b : Bytes) (hb : c ∉ b) : afterLast c (a ++ c :: b) = b := by
  have hcons : ∀ x : Bytes, c ∉ x → (x ++ c :: a.reverse).takeWhile (fun y => y != c) = x := by
    intro x hx
    induction x with
    | nil => simp
    | cons y x ih =>
      have h1 : y ≠ c := fun h => hx (by simp [h])
      rw [List.cons_append, List.takeWhile_cons_of_pos (by simpa using h1), ih (fun h => hx (by simp [h]))]
  unfold afterLast
  rw [List.reverse_append, List.reverse_cons, List.append_assoc]
  show ((b.reverse ++ c :: a.reverse).takeWhile _).reverse = b
  rw [hcons b.reverse (by simpa using hb), List.reverse_reverse]

theorem afterLast_no (c : UInt8) (b : Bytes) (hb : c ∉ b) : afterLast c b = b := by
  unfold afterLast
  have : ∀ l : Bytes, (∀ x ∈ l, x ≠ c) → l.takeWhile (fun y => y != c) = l := by
    intro l
    induction l with
    | nil => intro _; rfl
    | cons y l ih =>
      intro h
      rw [List.takeWhile_cons_of_pos (by simpa using h y (by simp)), ih (fun x hx => h x (by simp [hx]))]
  rw [this b.reverse (fun x hx h => hb (by rw [← h]; simpa using hx)), List.reverse_reverse]

theorem split_last (c : UInt8) (s : Bytes) (h : c ∈ s) : ∃ a b, s = a ++ c :: b ∧ c ∉ b := by
  induction s with
  | nil => cases h
  | cons x s ih =>
    by_cases hs : c ∈ s
    · obtain ⟨a, b, rfl, hb⟩ := ih hs
      exact ⟨x :: a, b, rfl, hb⟩
    · rcases List.mem_cons.mp h with rfl | h
      · exact ⟨[], s, rfl, hs⟩
      · exact absurd h hs

theorem afterLast_not_mem (c : UInt8) (s : Bytes) : c ∉ afterLast c s := by
  by_cases h : c ∈ s
  · obtain ⟨a, b, rfl, hb⟩ := split_last c s h
    rw [afterLast_app c a b hb]; exact hb
  · rw [afterLast_no c s h]; exact h

theorem pathBase_slash (p : Bytes) : pathBase p = b!"/" ∨ c!"/" ∉ pathBase p := by
  unfold pathBase
  by_cases h : p = []
  · rw [if_pos h]; exact .inr (by decide)
  · rw [if_neg h]
    dsimp only
    split
    · exact .inl rfl
    · exact .inr (afterLast_not_mem _ _)

set_option maxRecDepth 4000 in
theorem lower_slash : ∀ c : UInt8, lowerByte c = c!"/" ↔ c = c!"/" := forall_byte (by decide)
set_option maxRecDepth 4000 in
theorem lower_dot : ∀ c : UInt8, lowerByte c = c!"." ↔ c = c!"." := forall_byte (by decide)
set_option maxRecDepth 4000 in
theorem lower_lower : ∀ c : UInt8, lowerByte (lowerByte c) = lowerByte c := forall_byte (by decide)

theorem mem_toLower_slash (s : Bytes) : c!"/" ∈ toLower s ↔ c!"/" ∈ s := by
  unfold toLower
  rw [List.mem_map]
  exact ⟨fun ⟨c, hc, h⟩ => by rw [(lower_slash c).mp h] at hc; exact hc, fun h => ⟨_, h, rfl⟩⟩

/-- no slash, or just one -/
def Plain (n : Bytes) : Prop := n = b!"/" ∨ c!"/" ∉ n

theorem plain_lower (filename : Bytes) : Plain (toLower (pathBase filename)) := by
  rcases pathBase_slash filename with h | h
  · rw [h]; exact .inl rfl
  · exact .inr (fun h' => h ((mem_toLower_slash _).mp h'))

theorem ext_some (n a e : Bytes) (hp : Plain n) (hn : n = a ++ c!"." :: e) (he : c!"." ∉ e) : pathExt n = c!"." :: e := by
  have hs : c!"/" ∉ n := by
    rcases hp with h | h
    · rw [h] at hn
      have : c!"." ∈ (b!"/" : Bytes) := by rw [hn]; simp
      exact absurd this (by decide)
    · exact h
  unfold pathExt
  rw [afterLast_no _ n hs, if_pos (by rw [hn]; simp), hn, afterLast_app _ _ _ he]

theorem ext_none (n : Bytes) (h : c!"." ∉ n) : pathExt n = [] := by
  unfold pathExt
  rw [if_neg]
  intro hm
  refine h ?_
  unfold afterLast at hm
  rw [List.mem_reverse] at hm
  exact List.mem_reverse.mp ((List.takeWhile_sublist _).subset hm)

/-- a suffix that starts with its only dot is the extension -/
theorem ext_iff (n e : Bytes) (hp : Plain n) (he : c!"." ∉ e) : pathExt n = c!"." :: e ↔ Ends n (c!"." :: e) := by
  constructor
  · intro h
    by_cases hd : c!"." ∈ n
    · obtain ⟨a, b, hn, hb⟩ := split_last _ n hd
      rw [ext_some n a b hp hn hb] at h
      cases h
      exact ⟨a, hn⟩
    · rw [ext_none n hd] at h; cases h
  · rintro ⟨a, ha⟩
    exact ext_some n a e hp ha he

theorem take_base (a b : Bytes) : (a ++ b).take ((a ++ b).length - b.length) = a := by
  rw [List.length_append, Nat.add_sub_cancel, List.take_left']
  rfl

/-- the part before the extension is `k` or starts with `k.` iff the name does -/
theorem base_iff (n k : Bytes) (hp : Plain n) (hk : c!"." ∉ k) :
    (n.take (n.length - (pathExt n).length) = k ∨ hasPrefix (n.take (n.length - (pathExt n).length)) (k ++ b!".") = true) ↔
    n = k ∨ Starts n (k ++ b!".") := by
  by_cases hd : c!"." ∈ n
  · obtain ⟨a, b, hn, hb⟩ := split_last _ n hd
    rw [ext_some n a b hp hn hb]
    have : n.take (n.length - (c!"." :: b).length) = a := by rw [hn]; exact take_base a _
    rw [this]
    have hne : n ≠ k := fun h => hk (by rw [← h]; exact hd)
    constructor
    · rintro (h | h)
      · exact .inr ⟨b, by rw [hn, h]; simp⟩
      · unfold hasPrefix at h
        obtain ⟨r, hr⟩ := List.isPrefixOf_iff_prefix.mp h
        exact .inr ⟨r ++ c!"." :: b, by rw [hn, ← hr]; simp⟩
    · rintro (h | ⟨r, hr⟩)
      · exact absurd h hne
      · have heq : a ++ c!"." :: b = k ++ c!"." :: r := by rw [← hn, hr]; simp
        rcases List.append_eq_append_iff.mp heq with ⟨as, h1, h2⟩ | ⟨bs, h1, h2⟩
        · cases as with
          | nil => exact .inl (by rw [h1]; simp)
          | cons x as =>
            cases h2
            exact absurd (by rw [h1]; simp) hk
        · cases bs with
          | nil => exact .inl (by rw [h1]; simp)
          | cons x bs =>
            cases h2
            refine .inr ?_
            rw [h1]
            unfold hasPrefix
            exact List.isPrefixOf_iff_prefix.mpr ⟨bs, by simp⟩
  · rw [ext_none n hd, List.length_nil, Nat.sub_zero, List.take_length]
    constructor
    · rintro (h | h)
      · exact .inl h
      · unfold hasPrefix at h
        obtain ⟨r, hr⟩ := List.isPrefixOf_iff_prefix.mp h
        exact absurd (by rw [← hr]; simp) hd
    · rintro (h | ⟨r, hr⟩)
      · exact .inl h
      · exact absurd (by rw [hr]; simp) hd

theorem hasSuffix_iff (n s : Bytes) : hasSuffix n s = true ↔ Ends n s := by
  unfold hasSuffix
  rw [List.isSuffixOf_iff_suffix]
  constructor
  · rintro ⟨a, h⟩; exact ⟨a, h.symm⟩
  · rintro ⟨a, h⟩; exact ⟨a, h.symm⟩

/-- the name without `.oss` -/
theorem strip_iff (b n : Bytes) : (if hasSuffix b b!".oss" then b.take (b.length - 4) else b) = n ↔
    b = n ++ b!".oss" ∨ (b = n ∧ ¬ Ends n b!".oss") := by
  by_cases h : hasSuffix b b!".oss" = true
  · rw [if_pos h]
    obtain ⟨a, rfl⟩ := (hasSuffix_iff _ _).mp h
    rw [show (4 : Nat) = (b!".oss" : Bytes).length from rfl, take_base]
    constructor
    · rintro rfl; exact .inl rfl
    · rintro (h | ⟨h1, h2⟩)
      · exact List.append_cancel_right h
      · exact absurd ⟨a, h1.symm⟩ h2
  · rw [if_neg h]
    have h' : ¬ Ends b b!".oss" := fun h'' => h ((hasSuffix_iff _ _).mpr h'')
    constructor
    · rintro rfl; exact .inr ⟨rfl, h'⟩
    · rintro (h | h)
      · exact absurd ⟨n, h⟩ h'
      · exact h.1

/-- **C57 (the name).** Every file has exactly one name that counts. -/
theorem C57_name (filename : Bytes) : ∃ n, NameOf filename n ∧ ∀ m, NameOf filename m → m = n := by
  have := strip_iff (toLower (pathBase filename))
  exact ⟨_, (this _).mp rfl, fun m hm => ((this m).mpr hm).symm⟩

/-- **C57 (type).** The type of a file is the one its name says. -/
theorem C57_type (filename : Bytes) (hne : filename ≠ []) (n : Bytes) (hn : NameOf filename n) : TypeOf n (getFileType filename) := by
  have hs := (strip_iff _ n).mpr hn
  have hp : Plain n := by
    have := plain_lower filename
    rcases hn with h | h
    · rcases this with h' | h'
      · rw [h] at h'
        have : (n ++ b!".oss").length = 1 := by rw [h']; rfl
        simp at this
      · rw [h] at h'; exact .inr (fun hm => h' (by simp [hm]))
    · rw [← h.1]; exact this
  unfold getFileType
  rw [if_neg hne]
  dsimp only
  rw [hs]
  by_cases hm : ModuleName n
  · rw [if_pos]
    · exact .module hm
    · rw [hasSuffix_iff]; exact hm
  · rw [if_neg (by rw [hasSuffix_iff]; exact hm)]
    by_cases hbzl : Ends n b!".bzl"
    · rw [if_pos ((ext_iff n b!"bzl" hp (by decide)).mpr hbzl)]; exact .bzl hbzl
    · rw [if_neg (fun h => hbzl ((ext_iff n b!"bzl" hp (by decide)).mp h))]
      by_cases hsky : Ends n b!".sky"
      · rw [if_pos ((ext_iff n b!"sky" hp (by decide)).mpr hsky)]; exact .sky hsky
      · rw [if_neg (fun h => hsky ((ext_iff n b!"sky" hp (by decide)).mp h))]
        have hb : (pathExt n = b!".build" ∨ n.take (n.length - (pathExt n).length) = b!"build" ∨
            hasPrefix (n.take (n.length - (pathExt n).length)) b!"build." = true) ↔ BuildName n := by
          have h1 := ext_iff n b!"build" hp (by decide)
          have h2 := base_iff n b!"build" hp (by decide)
          rw [show (b!"build" ++ b!"." : Bytes) = b!"build." from rfl] at h2
          unfold BuildName
          rw [← or_assoc (a := n = _), ← h2]
          exact ⟨fun h => h.elim (fun h => .inr (h1.mp h)) .inl, fun h => h.elim .inr (fun h => .inl (h1.mpr h))⟩
        have hw : (pathExt n = b!".workspace" ∨ n.take (n.length - (pathExt n).length) = b!"workspace" ∨
            hasPrefix (n.take (n.length - (pathExt n).length)) b!"workspace." = true) ↔ WorkspaceName n := by
          have h1 := ext_iff n b!"workspace" hp (by decide)
          have h2 := base_iff n b!"workspace" hp (by decide)
          rw [show (b!"workspace" ++ b!"." : Bytes) = b!"workspace." from rfl] at h2
          unfold WorkspaceName
          rw [← or_assoc (a := n = _), ← h2]
          exact ⟨fun h => h.elim (fun h => .inr (h1.mp h)) .inl, fun h => h.elim .inr (fun h => .inl (h1.mpr h))⟩
        by_cases hB : BuildName n
        · rw [if_pos (hb.mpr hB)]; exact .build hm hbzl hsky hB
        · rw [if_neg (fun h => hB (hb.mp h))]
          by_cases hW : WorkspaceName n
          · rw [if_pos (hw.mpr hW)]; exact .workspace hm hbzl hsky hB hW
          · rw [if_neg (fun h => hW (hw.mp h))]; exact .default hm hbzl hsky hB hW

theorem ends_clash {n a b : Bytes} (h1 : Ends n a) (h2 : Ends n b) (hl : a.length ≤ b.length) : a.isSuffixOf b = true := by
  obtain ⟨x, hx⟩ := h1
  obtain ⟨y, hy⟩ := h2
  rw [List.isSuffixOf_iff_suffix]
  exact List.suffix_of_suffix_length_le ⟨x, hx.symm⟩ ⟨y, hy.symm⟩ hl

/-- **C57 (at most one type).** The description is unambiguous. -/
theorem C57_unique (n : Bytes) (s t : FileType) (hs : TypeOf n s) (ht : TypeOf n t) : s = t := by
  have e1 : ModuleName n → ¬ Ends n b!".bzl" := by
    rintro h hb
    have h' : Ends n b!"module.bazel" := by
      rcases h with h | ⟨a, h⟩
      · exact ⟨[], h⟩
      · exact ⟨a ++ b!".", by rw [h]; simp⟩
    exact absurd (ends_clash hb h' (by decide)) (by decide)
  have e2 : ModuleName n → ¬ Ends n b!".sky" := by
    rintro h hb
    have h' : Ends n b!"module.bazel" := by
      rcases h with h | ⟨a, h⟩
      · exact ⟨[], h⟩
      · exact ⟨a ++ b!".", by rw [h]; simp⟩
    exact absurd (ends_clash hb h' (by decide)) (by decide)
  have e3 : Ends n b!".bzl" → ¬ Ends n b!".sky" := fun h hb => absurd (ends_clash h hb (by decide)) (by decide)
  cases hs <;> cases ht <;> first | rfl | (exfalso; simp_all; done) | (exfalso; rename_i a b; exact e1 ‹_› ‹_›) | (exfalso; exact e2 ‹_› ‹_›) |
    (exfalso; exact e3 ‹_› ‹_›)

theorem toLower_nil (s : Bytes) : toLower s = [] ↔ s = [] := List.map_eq_nil_iff

theorem toLower_lower (s : Bytes) : toLower (toLower s) = toLower s := by
  unfold toLower
  rw [List.map_map]
  exact List.map_congr_left (fun c _ => lower_lower c)

theorem afterLast_lower (s : Bytes) : afterLast c!"/" (toLower s) = toLower (afterLast c!"/" s) := by
  by_cases h : c!"/" ∈ s
  · obtain ⟨a, b, rfl, hb⟩ := split_last _ s h
    have : toLower (a ++ c!"/" :: b) = toLower a ++ c!"/" :: toLower b := by
      unfold toLower
      rw [List.map_append, List.map_cons]
      rfl
    rw [this, afterLast_app _ _ _ hb, afterLast_app _ _ _ (fun h => hb ((mem_toLower_slash b).mp h))]
  · rw [afterLast_no _ _ h, afterLast_no _ _ (fun h' => h ((mem_toLower_slash s).mp h'))]

theorem dropWhile_lower (s : Bytes) : (toLower s).dropWhile (· == c!"/") = toLower (s.dropWhile (· == c!"/")) := by
  induction s with
  | nil => rfl
  | cons c s ih =>
    show (lowerByte c :: toLower s).dropWhile _ = _
    by_cases h : c = c!"/"
    · rw [List.dropWhile_cons_of_pos (by simpa using (lower_slash c).mpr h), List.dropWhile_cons_of_pos (by simpa using h), ih]
    · rw [List.dropWhile_cons_of_neg (by simpa using fun h' => h ((lower_slash c).mp h')), List.dropWhile_cons_of_neg (by simpa using h)]
      rfl

theorem pathBase_lower (s : Bytes) : pathBase (toLower s) = toLower (pathBase s) := by
  unfold pathBase
  by_cases h : s = []
  · rw [if_pos h, if_pos ((toLower_nil s).mpr h)]; rfl
  · rw [if_neg h, if_neg (fun h' => h ((toLower_nil s).mp h'))]
    dsimp only
    have hr : ∀ x : Bytes, (toLower x).reverse = toLower x.reverse := fun x => by simp [toLower]
    rw [hr, dropWhile_lower, hr, afterLast_lower]
    by_cases h2 : afterLast c!"/" (s.reverse.dropWhile (· == c!"/")).reverse = []
    · rw [if_pos h2, if_pos ((toLower_nil _).mpr h2)]; rfl
    · rw [if_neg h2, if_neg (fun h' => h2 ((toLower_nil _).mp h'))]

/-- **C57 (case and directory).** The type depends only on the path up to case, and only on its last element. -/
theorem C57_case_directory (f g d b : Bytes) :
    (toLower f = toLower g → getFileType f = getFileType g) ∧
    (c!"/" ∉ b → b ≠ [] → getFileType (d ++ c!"/" :: b) = getFileType b) := by
  have hkey : ∀ f g : Bytes, f ≠ [] → g ≠ [] → toLower (pathBase f) = toLower (pathBase g) → getFileType f = getFileType g := by
    intro f g hf hg h
    unfold getFileType
    rw [if_neg hf, if_neg hg, h]
  constructor
  · intro h
    by_cases hf : f = []
    · have hg : g = [] := (toLower_nil g).mp (by rw [← h, hf]; rfl)
      rw [hf, hg]
    · have hg : g ≠ [] := fun hg => hf ((toLower_nil f).mp (by rw [h, hg]; rfl))
      exact hkey f g hf hg (by rw [← pathBase_lower, ← pathBase_lower, h])
  · intro hb hne
    refine hkey _ _ (by simp) hne ?_
    rw [Verif.Props.FixLabels.pathBase_split d b hb hne, Verif.Props.FixLabels.pathBase_plain b hb hne]

/-- **C57 (explicit types).** `--type` overrides the name, except for `auto`. -/
theorem C57_parser (filename : Bytes) :
    parserType b!"build" filename = .build ∧ parserType b!"bzl" filename = .bzl ∧ parserType b!"workspace" filename = .workspace ∧
    parserType b!"module" filename = .module ∧ parserType b!"default" filename = .default ∧
    parserType b!"auto" filename = getFileType filename ∧ getFileType [] = .default := ⟨rfl, rfl, rfl, rfl, rfl, rfl, rfl⟩

/-- **C57 (which files a directory is searched for).** -/
theorem C57_starlark (name : Bytes) (hs : c!"/" ∉ name) :
    isStarlarkFile name = true ↔ name = b!"BUILD" ∨ name = b!"WORKSPACE" ∨ Ends name b!".bzl" ∨ Ends name b!".sky" ∨ Ends name b!".star" ∨
      ((Starts name b!"BUILD." ∨ Starts name b!"WORKSPACE." ∨ Starts name b!"MODULE.") ∧ (Ends name b!".bazel" ∨ Ends name b!".oss")) := by
  have hp : Plain name := .inr hs
  have e : ∀ e : Bytes, c!"." ∉ e → (pathExt name = c!"." :: e ↔ Ends name (c!"." :: e)) := fun e he => ext_iff name e hp he
  have hpre : ∀ p, hasPrefix name p = true ↔ Starts name p := by
    intro p
    unfold hasPrefix
    rw [List.isPrefixOf_iff_prefix]
    exact ⟨fun ⟨a, h⟩ => ⟨a, h.symm⟩, fun ⟨a, h⟩ => ⟨a, h.symm⟩⟩
  have hB : name = b!"BUILD" → pathExt name = [] := fun h => by rw [h]; exact ext_none _ (by decide)
  have hW : name = b!"WORKSPACE" → pathExt name = [] := fun h => by rw [h]; exact ext_none _ (by decide)
  unfold isStarlarkFile
  dsimp only
  have e1 : pathExt name = b!".bzl" ↔ Ends name b!".bzl" := e b!"bzl" (by decide)
  have e2 : pathExt name = b!".sky" ↔ Ends name b!".sky" := e b!"sky" (by decide)
  have e3 : pathExt name = b!".star" ↔ Ends name b!".star" := e b!"star" (by decide)
  have e4 : pathExt name = b!".bazel" ↔ Ends name b!".bazel" := e b!"bazel" (by decide)
  have e5 : pathExt name = b!".oss" ↔ Ends name b!".oss" := e b!"oss" (by decide)
  rw [← e1, ← e2, ← e3, ← e4, ← e5]
  by_cases h1 : pathExt name = b!".bzl" ∨ pathExt name = b!".sky" ∨ pathExt name = b!".star"
  · rw [if_pos h1]
    simp only [true_iff]
    rcases h1 with h | h | h
    · exact .inr (.inr (.inl h))
    · exact .inr (.inr (.inr (.inl h)))
    · exact .inr (.inr (.inr (.inr (.inl h))))
  · rw [if_neg h1]
    have h1' : ¬ pathExt name = b!".bzl" ∧ ¬ pathExt name = b!".sky" ∧ ¬ pathExt name = b!".star" :=
      ⟨fun h => h1 (.inl h), fun h => h1 (.inr (.inl h)), fun h => h1 (.inr (.inr h))⟩
    by_cases h2 : pathExt name = b!".bazel" ∨ pathExt name = b!".oss"
    · rw [if_pos h2, Bool.or_eq_true, Bool.or_eq_true, hpre, hpre, hpre]
      have hnb : name ≠ b!"BUILD" := fun h => by rw [hB h] at h2; rcases h2 with h2 | h2 <;> cases h2
      have hnw : name ≠ b!"WORKSPACE" := fun h => by rw [hW h] at h2; rcases h2 with h2 | h2 <;> cases h2
      simp only [hnb, hnw, h1'.1, h1'.2.1, h1'.2.2, false_or, h2, and_true, or_assoc]
    · rw [if_neg h2, Bool.or_eq_true, decide_eq_true_eq, decide_eq_true_eq]
      simp only [h1'.1, h1'.2.1, h1'.2.2, h2, and_false, or_false]

/-! #### cases -/

example : getFileType b!"a/b/Build.Bazel.oss" = .build := by decide
example : NameOf b!"a/b/Build.Bazel.oss" b!"build.bazel" := .inl (by decide)
example : getFileType b!"x/rules.BZL" = .bzl := by decide
example : getFileType b!"x/deps.MODULE.bazel" = .module := by decide
example : getFileType b!"build.sky" = .default := by decide
example : isStarlarkFile b!"BUILD.foo.oss" = true := by decide

end Verif.Props.FileType
