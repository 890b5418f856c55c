import Verif.Model.UnusedDeps
import Verif.Props.NameWarn
import Verif.Props.ListEdit
import Verif.Props.Labels
import Verif.Props.Warn
import Verif.Proofs.Strings
/-
C87: unused_deps proposes to remove exactly the elements of `deps` that the compiler did not need.
-/
namespace Verif.Props.UnusedDeps
open Verif Verif.Syntax Verif.UnusedDeps Verif.Props.NameWarn Verif.Props.ListEdit

/-! ## Specification -/

/-- `nl` ends a line and `rest` follows: LF, CR LF, or a CR that no LF follows -/
def Newline (nl rest : Bytes) : Prop := nl = [10] ∨ nl = [13, 10] ∨ (nl = [13] ∧ ∀ r, rest ≠ 10 :: r)

/-- The text after the colon of a header of a manifest has the value: it goes on as long as lines start with a space, which does not
belong to it. -/
inductive Value : Bytes → Bytes → Prop
  | done (text) : (∀ r, text ≠ 32 :: r) → Value text []
  | line (l nl rest v) : 10 ∉ l → 13 ∉ l → Newline nl rest → Value rest v → Value (32 :: (l ++ (nl ++ rest))) (l ++ v)

/-- The value of the first occurrence of the key. -/
def ValueOf (key contents v : Bytes) : Prop := ∃ a rest, FirstAt (key ++ b!":") contents a rest ∧ Value rest v

/-- The first manifest of a jar. -/
def Manifest (entries : Jar) (contents : Bytes) : Prop :=
  ∃ pre post, entries = pre ++ (b!"META-INF/MANIFEST.MF", some contents) :: post ∧ ∀ q ∈ pre, q.1 ≠ b!"META-INF/MANIFEST.MF"

/-- The line without the CR of a CR LF. -/
def Stripped (raw jar : Bytes) : Prop := raw = jar ++ [13] ∨ (raw = jar ∧ ∀ r, raw ≠ r ++ [13])

/-- A line that is neither an option nor longer than the scanner takes. -/
def Plain (l : Bytes) : Prop := 10 ∉ l ∧ l.length < 65536 ∧ ¬ b!"--" <+: l

/-- `jar` is one of the first lines of the text, before any option. -/
def Listed (text jar : Bytes) : Prop :=
  ∃ (pre : List Bytes) (raw tail : Bytes), text = pre.flatMap (· ++ [10]) ++ (raw ++ tail) ∧ ((tail = [] ∧ raw ≠ []) ∨ ∃ t, tail = 10 :: t) ∧
    (∀ l ∈ pre, Plain l) ∧ Plain raw ∧ Stripped raw jar

/-- `jar` is an argument of the first `--direct_dependencies` of a params file. -/
def DirectJar (data jar : Bytes) : Prop := ∃ a c rest, FirstAt b!"--direct_dependencies" data a (c :: rest) ∧ Listed rest jar

/-- the path of a jar on disk -/
def OnDisk (out jar path : Bytes) : Prop :=
  (∃ r, jar = b!"bazel-out" ++ r ∧ path = out ++ r) ∨ (path = out ++ jar ∧ ¬ b!"bazel-out" <+: jar)

/-- `@@repo//x` is written `@repo//x`, `@//x` is written `//x` -/
def Written (label l : Bytes) : Prop :=
  (label = c!"@" :: l ∧ ∃ r, l = c!"@" :: r ∨ l = c!"/" :: r) ∨
  (label = l ∧ ¬ ∃ r, label = c!"@" :: c!"@" :: r ∨ label = c!"@" :: c!"/" :: r)

/-- the manifest of the jar names the target -/
def TargetOf (disk : Bytes → Option Jar) (out jar l : Bytes) : Prop :=
  ∃ path entries contents label, OnDisk out jar path ∧ disk path = some entries ∧ Manifest entries contents ∧
    ValueOf b!"Target-Label" contents label ∧ Written label l

/-- a comment at the end of the line says `runtime` -/
def Runtime (s : StringN) : Prop := ∃ k ∈ s.comments.suffix, ∃ a b, toLower k.token = a ++ b!"runtime" ++ b

/-- the label an element of `deps` of a rule of the repository stands for, seen from the main repository -/
def Seen (repo value full : Bytes) : Prop :=
  (repo ≠ [] ∧ (∃ r, value = b!"//" ++ r) ∧ full = c!"@" :: (repo ++ value)) ∨
  (full = value ∧ (repo = [] ∨ ¬ ∃ r, value = b!"//" ++ r))

/-- what is proposed for an element -/
def Proposed (s : StringN) (c : Command) : Prop := (Runtime s ∧ c = .move s.value) ∨ (¬ Runtime s ∧ c = .remove s.value)

/-! ## Proofs -/

theorem first_newline : ∀ s : Bytes, (10 ∉ s ∧ 13 ∉ s) ∨
    ∃ l nl rest, s = l ++ (nl ++ rest) ∧ 10 ∉ l ∧ 13 ∉ l ∧ Newline nl rest
  | [] => Or.inl (by simp)
  | c :: s => by
    by_cases h1 : c = 10
    · exact Or.inr ⟨[], [10], s, by simp [h1], by simp, by simp, Or.inl rfl⟩
    by_cases h2 : c = 13
    · cases s with
      | nil => exact Or.inr ⟨[], [13], [], by simp [h2], by simp, by simp, Or.inr (Or.inr ⟨rfl, by simp⟩)⟩
      | cons d s =>
        by_cases h3 : d = 10
        · exact Or.inr ⟨[], [13, 10], s, by simp [h2, h3], by simp, by simp, Or.inr (Or.inl rfl)⟩
        · exact Or.inr ⟨[], [13], d :: s, by simp [h2], by simp, by simp, Or.inr (Or.inr ⟨rfl, by simp [h3]⟩)⟩
    rcases first_newline s with ⟨h, h'⟩ | ⟨l, nl, rest, h, hl, hl', hn⟩
    · exact Or.inl ⟨by simp [h, Ne.symm h1], by simp [h', Ne.symm h2]⟩
    · exact Or.inr ⟨c :: l, nl, rest, by simp [h], by simp [hl, Ne.symm h1], by simp [hl', Ne.symm h2], hn⟩

theorem findIdx?_append_no {p : UInt8 → Bool} : ∀ {l r : Bytes}, (∀ c ∈ l, p c = false) →
    (l ++ r).findIdx? p = (r.findIdx? p).map (· + l.length)
  | [], r, _ => by simp
  | c :: l, r, h => by
    rw [List.cons_append, List.findIdx?_cons, h c (by simp)]
    have := findIdx?_append_no (p := p) (l := l) (r := r) (fun d hd => h d (by simp [hd]))
    simp only [Bool.false_eq_true, if_false, this, Option.map_map]
    congr 1

theorem noByte {b : UInt8} {l : Bytes} (h : b ∉ l) : ∀ c ∈ l, (c == b) = false := by
  intro c hc
  rw [beq_eq_false_iff_ne]
  intro e
  exact h (e ▸ hc)

theorem findIdx?_no {b : UInt8} {l : Bytes} (h : b ∉ l) : l.findIdx? (· == b) = none := by
  rw [List.findIdx?_eq_none_iff]
  exact noByte h

theorem indexNewline_none {s : Bytes} (h : 10 ∉ s) (h' : 13 ∉ s) : indexNewline s = none := by
  unfold indexNewline
  rw [findIdx?_no h, findIdx?_no h']

theorem indexNewline_some {l nl rest : Bytes} (h : 10 ∉ l) (h' : 13 ∉ l) (hn : Newline nl rest) :
    indexNewline (l ++ (nl ++ rest)) = some (l.length, l.length + nl.length) := by
  unfold indexNewline
  rw [findIdx?_append_no (noByte h), findIdx?_append_no (noByte h')]
  rcases hn with rfl | rfl | ⟨rfl, hr⟩
  · simp only [List.cons_append, List.nil_append, List.findIdx?_cons]
    cases hf : rest.findIdx? (· == 13) with
    | none => simp
    | some k => simp
  · have h2 : 1 + l.length = l.length + 1 := by omega
    simp [List.findIdx?_cons, h2]
  · simp only [List.cons_append, List.nil_append, List.findIdx?_cons]
    cases hf : rest.findIdx? (· == 10) with
    | none => simp
    | some k =>
      have hk : k ≠ 0 := by
        intro e
        cases rest with
        | nil => simp at hf
        | cons c r =>
          rw [List.findIdx?_cons] at hf
          by_cases hc : (c == 10) = true
          · exact hr r (by rw [eq_of_beq hc])
          · rw [if_neg hc] at hf
            cases hx : r.findIdx? (· == 10) with
            | none => rw [hx] at hf; simp at hf
            | some j => rw [hx] at hf; simp at hf; omega
      have h1 : ¬ k + 1 + l.length < l.length := by omega
      have h2 : ¬ k + 1 + l.length = l.length + 1 := by omega
      simp [h1, h2]

theorem newline_length {nl rest : Bytes} (h : Newline nl rest) : 0 < nl.length := by
  rcases h with rfl | rfl | ⟨rfl, _⟩ <;> simp

theorem unfold_iff : ∀ (f : Nat) (text v : Bytes), text.length < f → (unfold f text = some v ↔ Value text v)
  | 0, _, _, h => by omega
  | f + 1, text, v, hf => by
    unfold UnusedDeps.unfold
    cases text with
    | nil =>
      simp only [List.head?_nil, reduceCtorEq, if_false, Option.some.injEq]
      constructor
      · intro h; subst h; exact .done _ (by simp)
      · intro h; cases h; rfl
    | cons c r =>
      by_cases hc : c = 32
      · subst hc
        simp only [List.head?_cons, if_true]
        rcases first_newline r with ⟨h1, h2⟩ | ⟨l, nl, rest, e, h1, h2, hn⟩
        · rw [indexNewline_none (by simp [h1]) (by simp [h2])]
          constructor
          · intro h; cases h
          · intro h
            cases h with
            | done _ h => exact absurd rfl (h r)
            | line l nl rest v a b hn hv =>
              exfalso
              rcases hn with rfl | rfl | ⟨rfl, _⟩ <;> simp at h1 h2
        · subst e
          have hi := indexNewline_some (l := 32 :: l) (by simp [h1]) (by simp [h2]) hn
          rw [List.cons_append] at hi
          rw [hi]
          have hd : (32 :: (l ++ (nl ++ rest))).drop ((32 :: l).length + nl.length) = rest := by
            rw [← List.cons_append, ← List.append_assoc]
            have : (32 :: l).length + nl.length = (32 :: l ++ nl).length := by simp; omega
            rw [this, List.drop_left]
          have ht : (32 :: (l ++ (nl ++ rest))).take (32 :: l).length = 32 :: l := by
            rw [← List.cons_append, List.take_left]
          simp only [hd, ht, List.drop_succ_cons, List.drop_zero]
          have hlen := newline_length hn
          have ih := fun v => unfold_iff f rest v (by simp at hf; omega)
          constructor
          · intro h
            cases hu : UnusedDeps.unfold f rest with
            | none => rw [hu] at h; cases h
            | some w =>
              rw [hu] at h
              simp only [Option.map_some, Option.some.injEq] at h
              subst h
              exact .line l nl rest w h1 h2 hn ((ih w).1 hu)
          · intro h
            generalize ht : (32 :: (l ++ (nl ++ rest)) : Bytes) = text at h
            cases h with
            | done _ h => exact absurd ht.symm (h _)
            | line l' nl' rest' v' a b hn' hv =>
              have e := indexNewline_some a b hn'
              have e' := indexNewline_some h1 h2 hn
              have ht' : l ++ (nl ++ rest) = l' ++ (nl' ++ rest') := by simpa using ht
              rw [← ht', e'] at e
              simp only [Option.some.injEq, Prod.mk.injEq] at e
              obtain ⟨e1, e2⟩ := e
              obtain ⟨rfl, ht''⟩ := List.append_inj ht' e1
              obtain ⟨rfl, rfl⟩ := List.append_inj ht'' (by omega)
              rw [(ih v').2 hv]
              rfl
      · simp only [List.head?_cons, Option.some.injEq, hc, if_false]
        constructor
        · intro h; subst h; exact .done _ (by intro r' e; cases e; exact hc rfl)
        · intro h
          generalize hx : c :: r = text at h
          cases h with
          | done _ => rfl
          | line => exact absurd (List.cons.inj hx).1 hc

/-- C87 -/
theorem C87_manifest (key contents v : Bytes) : manifestValue key contents = some v ↔ ValueOf key contents v := by
  unfold manifestValue
  have hk : key ++ b!":" ≠ [] := by simp
  cases h : NameWarn.after (key ++ b!":") contents with
  | none =>
    constructor
    · intro h; cases h
    · rintro ⟨a, rest, hf, _⟩
      exact absurd hf.1 (after_none hk h a rest)
  | some r =>
    obtain ⟨a, ha⟩ := after_some h
    show UnusedDeps.unfold (r.length + 1) r = some v ↔ _
    rw [unfold_iff _ _ _ (Nat.lt_succ_self _)]
    constructor
    · intro hv; exact ⟨a, r, ha, hv⟩
    · rintro ⟨a', r', hf, hv⟩
      obtain ⟨_, rfl⟩ := firstAt_unique ha hf
      exact hv

theorem jarValue_iff (key : Bytes) (jar : Option Jar) (v : Bytes) :
    jarValue key jar = some v ↔ ∃ entries contents, jar = some entries ∧ Manifest entries contents ∧ ValueOf key contents v := by
  unfold jarValue
  cases jar with
  | none => simp
  | some entries =>
    simp only [Option.some.injEq, exists_and_left, exists_eq_left']
    constructor
    · intro h
      split at h
      · rename_i n contents hf
        rw [List.find?_eq_some_iff_append] at hf
        obtain ⟨hn, as, bs, e, hp⟩ := hf
        simp only [decide_eq_true_eq] at hn
        subst hn
        exact ⟨contents, ⟨as, bs, e, fun q hq => by simpa using hp q hq⟩, (C87_manifest _ _ _).1 h⟩
      · cases h
    · rintro ⟨contents, ⟨pre, post, rfl, hp⟩, hv⟩
      have : (pre ++ (b!"META-INF/MANIFEST.MF", some contents) :: post).find? (fun q => q.1 = b!"META-INF/MANIFEST.MF") =
          some (b!"META-INF/MANIFEST.MF", some contents) := by
        rw [List.find?_eq_some_iff_append]
        exact ⟨by simp, pre, post, rfl, fun q hq => by simpa using hp q hq⟩
      rw [this]
      exact (C87_manifest _ _ _).2 hv


/-! ### the lines -/

theorem stripped_iff (raw jar : Bytes) : Stripped raw jar ↔ dropCR raw = jar := by
  unfold Stripped dropCR
  rcases List.eq_nil_or_concat raw with rfl | ⟨r, c, rfl⟩
  · simp
  · simp only [List.concat_eq_append, List.getLast?_append, List.getLast?_singleton, Option.some_or, Option.some.injEq, List.dropLast_concat]
    by_cases hc : c = 13
    · subst hc
      rw [if_pos rfl]
      constructor
      · rintro (h | ⟨_, h⟩)
        · exact List.append_cancel_right h
        · exact absurd rfl (h r)
      · intro h; exact Or.inl (by rw [h])
    · rw [if_neg hc]
      constructor
      · rintro (h | ⟨h, _⟩)
        · exact absurd (List.cons.inj (List.append_inj' h rfl).2).1 hc
        · exact h
      · intro h
        refine Or.inr ⟨h, fun r' e => ?_⟩
        exact hc (List.cons.inj (List.append_inj' e rfl).2).1

theorem option_dropCR (raw : Bytes) : b!"--" <+: dropCR raw ↔ b!"--" <+: raw := by
  unfold dropCR
  split
  · rename_i h
    rcases List.eq_nil_or_concat raw with rfl | ⟨r, c, rfl⟩
    · simp at h
    · simp only [List.concat_eq_append, List.getLast?_append, List.getLast?_singleton, Option.some_or, Option.some.injEq] at h
      subst h
      simp only [List.concat_eq_append, List.dropLast_concat]
      constructor
      · rintro ⟨t, rfl⟩; exact ⟨t ++ [13], by simp⟩
      · rintro ⟨t, e⟩
        rcases List.eq_nil_or_concat t with rfl | ⟨t', d, rfl⟩
        · exfalso
          have := congrArg List.getLast? e
          simp at this
        · rw [List.concat_eq_append, ← List.append_assoc] at e
          exact ⟨t', (List.append_inj' e rfl).1⟩
  · exact Iff.rfl

theorem text_cases (text : Bytes) : 10 ∉ text ∨ ∃ w t, 10 ∉ w ∧ text = w ++ 10 :: t := by
  induction text with
  | nil => exact Or.inl (by simp)
  | cons c s ih =>
    by_cases hc : c = 10
    · exact Or.inr ⟨[], s, by simp, by simp [hc]⟩
    · rcases ih with h | ⟨w, t, h, rfl⟩
      · exact Or.inl (by simp [h, Ne.symm hc])
      · exact Or.inr ⟨c :: w, t, by simp [h, Ne.symm hc], by simp⟩

theorem scanLines_last {w : Bytes} (h : 10 ∉ w) : scanLines w = if w = [] then [] else if w.length < 65536 then [dropCR w] else [] := by
  unfold scanLines
  rw [splitAll_single _ _ h]
  by_cases hw : w = []
  · simp [hw]
  · simp only [List.getLast?_singleton, Option.some.injEq, hw, if_false, List.takeWhile_cons]
    by_cases hl : w.length < 65536 <;> simp [hl]

theorem scanLines_line {w : Bytes} (t : Bytes) (h : 10 ∉ w) :
    scanLines (w ++ 10 :: t) = if w.length < 65536 then dropCR w :: scanLines t else [] := by
  unfold scanLines
  rw [splitAll_cons_sep _ _ _ h]
  have hne := splitAll_ne_nil 10 t
  have h1 : (w :: splitAll 10 t).getLast? = (splitAll 10 t).getLast? := by
    cases hs : splitAll 10 t with
    | nil => exact absurd hs hne
    | cons a l => rw [List.getLast?_cons_cons]
  have h2 : (w :: splitAll 10 t).dropLast = w :: (splitAll 10 t).dropLast := by
    cases hs : splitAll 10 t with
    | nil => exact absurd hs hne
    | cons a l => rw [List.dropLast_cons_cons]
  simp only [h1, h2]
  by_cases hl : w.length < 65536
  · rw [if_pos hl]
    split <;> simp [hl]
  · rw [if_neg hl]
    split <;> simp [hl]

theorem listed_last {w : Bytes} (jar : Bytes) (h : 10 ∉ w) : Listed w jar ↔ w ≠ [] ∧ Plain w ∧ Stripped w jar := by
  constructor
  · rintro ⟨pre, raw, tail, e, ht, hp, hr, hs⟩
    cases pre with
    | cons a pre =>
      exfalso
      apply h
      rw [e]; simp
    | nil =>
      rcases ht with ⟨rfl, hne⟩ | ⟨t, rfl⟩
      · simp at e
        subst e
        exact ⟨hne, hr, hs⟩
      · exfalso; apply h; rw [e]; simp
  · rintro ⟨hne, hp, hs⟩
    exact ⟨[], w, [], by simp, Or.inl ⟨rfl, hne⟩, by simp, hp, hs⟩

theorem split_line {w t w' t' : Bytes} (h : 10 ∉ w) (h' : 10 ∉ w') (e : w ++ 10 :: t = w' ++ 10 :: t') : w = w' ∧ t = t' := by
  induction w generalizing w' with
  | nil =>
    cases w' with
    | nil => simpa using e
    | cons c w' => simp at e h'; exact absurd e.1 h'.1
  | cons c w ih =>
    cases w' with
    | nil => simp at e h; exact absurd e.1.symm h.1
    | cons c' w' =>
      simp only [List.cons_append, List.cons.injEq] at e
      simp only [List.mem_cons, not_or] at h h'
      obtain ⟨rfl, rfl⟩ := ih h.2 h'.2 e.2
      rw [e.1]; exact ⟨rfl, rfl⟩

theorem listed_line {w : Bytes} (t jar : Bytes) (h : 10 ∉ w) :
    Listed (w ++ 10 :: t) jar ↔ Plain w ∧ (Stripped w jar ∨ Listed t jar) := by
  constructor
  · rintro ⟨pre, raw, tail, e, ht, hp, hr, hs⟩
    cases pre with
    | cons a pre =>
      have ha := hp a (by simp)
      simp only [List.flatMap_cons, List.append_assoc, List.cons_append, List.nil_append] at e
      obtain ⟨rfl, rfl⟩ := split_line h ha.1 e
      exact ⟨ha, Or.inr ⟨pre, raw, tail, rfl, ht, fun l hl => hp l (by simp [hl]), hr, hs⟩⟩
    | nil =>
      rcases ht with ⟨rfl, hne⟩ | ⟨t', rfl⟩
      · exfalso
        apply hr.1
        have : w ++ 10 :: t = raw := by simpa using e
        rw [← this]; simp
      · obtain ⟨rfl, rfl⟩ := split_line h hr.1 (by simpa using e)
        exact ⟨hr, Or.inl hs⟩
  · rintro ⟨hw, hs | ⟨pre, raw, tail, rfl, ht, hp, hr, hs⟩⟩
    · exact ⟨[], w, 10 :: t, by simp, Or.inr ⟨t, rfl⟩, by simp, hw, hs⟩
    · refine ⟨w :: pre, raw, tail, by simp, ht, fun l hl => ?_, hr, hs⟩
      rcases List.mem_cons.1 hl with rfl | hl
      · exact hw
      · exact hp l hl

theorem not_option (l : Bytes) : (!hasPrefix l b!"--") = true ↔ ¬ b!"--" <+: l := by
  unfold hasPrefix
  rw [Bool.not_eq_true', ← Bool.not_eq_true, List.isPrefixOf_iff_prefix]

theorem lines_iff : ∀ (n : Nat) (text jar : Bytes), text.length ≤ n →
    (jar ∈ (scanLines text).takeWhile (fun l => !hasPrefix l b!"--") ↔ Listed text jar) := by
  intro n
  induction n with
  | zero =>
    intro text jar h
    have : text = [] := List.length_eq_zero_iff.1 (by omega)
    subst this
    rw [listed_last _ (by simp), scanLines_last (by simp)]
    simp
  | succ n ih =>
    intro text jar hn
    rcases text_cases text with h | ⟨w, t, h, rfl⟩
    · rw [listed_last _ h, scanLines_last h]
      by_cases hw : text = []
      · simp [hw]
      · have hw' : text ≠ [] := hw
        rw [if_neg hw']
        by_cases hl : text.length < 65536
        · rw [if_pos hl, List.takeWhile_cons]
          by_cases hd : b!"--" <+: text
          · have : ¬ (!hasPrefix (dropCR text) b!"--") = true := by rw [not_option, option_dropCR]; exact fun k => k hd
            rw [if_neg this]
            simp [Plain, hd]
          · have : (!hasPrefix (dropCR text) b!"--") = true := by rw [not_option, option_dropCR]; exact hd
            rw [if_pos this, List.takeWhile_nil, List.mem_singleton, stripped_iff]
            exact ⟨fun e => ⟨hw', ⟨h, hl, hd⟩, e.symm⟩, fun e => e.2.2.symm⟩
        · rw [if_neg hl]
          simp [Plain, hl]
    · rw [listed_line _ _ h, scanLines_line _ h]
      have ih' := ih t jar (by simp at hn; omega)
      by_cases hl : w.length < 65536
      · rw [if_pos hl, List.takeWhile_cons]
        by_cases hd : b!"--" <+: w
        · have : ¬ (!hasPrefix (dropCR w) b!"--") = true := by rw [not_option, option_dropCR]; exact fun k => k hd
          rw [if_neg this]
          simp [Plain, hd]
        · have : (!hasPrefix (dropCR w) b!"--") = true := by rw [not_option, option_dropCR]; exact hd
          rw [if_pos this, List.mem_cons, ih', stripped_iff]
          exact ⟨fun e => ⟨⟨h, hl, hd⟩, e.imp Eq.symm id⟩, fun e => e.2.imp Eq.symm id⟩
      · rw [if_neg hl]
        simp [Plain, hl]


/-! ### the direct dependencies -/

theorem written_iff (label l : Bytes) : Written label l ↔ plain label = l := by
  unfold Written plain hasPrefix
  have hc : (List.isPrefixOf b!"@@" label || List.isPrefixOf b!"@/" label) = true ↔ (∃ r, label = b!"@@" ++ r) ∨ ∃ r, label = b!"@/" ++ r := by
    rw [Bool.or_eq_true, prefix_iff, prefix_iff]
  by_cases h : (∃ r, label = b!"@@" ++ r) ∨ ∃ r, label = b!"@/" ++ r
  · rw [if_pos (hc.2 h)]
    have h' : ∃ r, label = c!"@" :: c!"@" :: r ∨ label = c!"@" :: c!"/" :: r := by
      rcases h with ⟨r, h⟩ | ⟨r, h⟩
      · exact ⟨r, Or.inl h⟩
      · exact ⟨r, Or.inr h⟩
    constructor
    · rintro (⟨rfl, _⟩ | ⟨_, k⟩)
      · rfl
      · exact absurd h' k
    · intro e
      left
      obtain ⟨r, rfl | rfl⟩ := h'
      · exact ⟨by rw [← e]; rfl, r, Or.inl e.symm⟩
      · exact ⟨by rw [← e]; rfl, r, Or.inr e.symm⟩
  · rw [if_neg (fun k => h (hc.1 k))]
    constructor
    · rintro (⟨rfl, r, rfl | rfl⟩ | ⟨e, _⟩)
      · exact absurd (Or.inl ⟨r, rfl⟩) h
      · exact absurd (Or.inr ⟨r, rfl⟩) h
      · exact e
    · intro e
      refine Or.inr ⟨e, ?_⟩
      rintro ⟨r, rfl | rfl⟩
      · exact h (Or.inl ⟨r, rfl⟩)
      · exact h (Or.inr ⟨r, rfl⟩)

theorem onDisk_iff (out jar path : Bytes) : OnDisk out jar path ↔ jarPath out jar = path := by
  unfold OnDisk jarPath trimPrefix
  by_cases h : (b!"bazel-out").isPrefixOf jar = true
  · rw [if_pos h]
    obtain ⟨r, rfl⟩ := (prefix_iff _ _).1 h
    rw [List.drop_left]
    constructor
    · rintro (⟨r', e, rfl⟩ | ⟨_, k⟩)
      · rw [List.append_cancel_left e]
      · exact absurd ⟨r, rfl⟩ k
    · intro e; exact Or.inl ⟨r, rfl, e.symm⟩
  · rw [if_neg h]
    constructor
    · rintro (⟨r, rfl, _⟩ | ⟨e, _⟩)
      · exact absurd ((prefix_iff _ _).2 ⟨r, rfl⟩) h
      · exact e.symm
    · intro e
      exact Or.inr ⟨e.symm, fun k => h (List.isPrefixOf_iff_prefix.2 k)⟩

theorem targetOf_iff (disk : Bytes → Option Jar) (out jar l : Bytes) :
    TargetOf disk out jar l ↔ (jarValue b!"Target-Label" (disk (jarPath out jar))).map plain = some l := by
  rw [Option.map_eq_some_iff]
  constructor
  · rintro ⟨path, entries, contents, label, hd, he, hm, hv, hw⟩
    rw [onDisk_iff] at hd
    subst hd
    exact ⟨label, (jarValue_iff _ _ _).2 ⟨entries, contents, he, hm, hv⟩, (written_iff _ _).1 hw⟩
  · rintro ⟨label, h, hp⟩
    obtain ⟨entries, contents, he, hm, hv⟩ := (jarValue_iff _ _ _).1 h
    exact ⟨_, entries, contents, label, (onDisk_iff _ _ _).2 rfl, he, hm, hv, (written_iff _ _).2 hp⟩

/-- C87: the map from jars to labels. -/
theorem C87_direct (disk : Bytes → Option Jar) (out data : Bytes) (deps : List (Bytes × Bytes)) (h : directDeps disk out (some data) = some deps)
    (jar l : Bytes) : (jar, l) ∈ deps ↔ DirectJar data jar ∧ TargetOf disk out jar l := by
  unfold directDeps at h
  have hne : b!"--direct_dependencies" ≠ [] := by simp
  cases ha : NameWarn.after b!"--direct_dependencies" data with
  | none =>
    simp only [ha] at h
    cases h
    simp only [List.not_mem_nil, false_iff]
    rintro ⟨⟨a, c, rest, hf, _⟩, _⟩
    exact after_none hne ha _ _ hf.1
  | some r =>
    simp only [ha] at h
    obtain ⟨a, hf⟩ := after_some ha
    cases r with
    | nil => cases h
    | cons c rest =>
      simp only [Option.some.injEq] at h
      subst h
      unfold section_
      rw [List.mem_filterMap]
      have hl := fun j => lines_iff rest.length rest j (Nat.le_refl _)
      constructor
      · rintro ⟨j, hj, e⟩
        rw [hl] at hj
        obtain ⟨v, hv, e⟩ := Option.map_eq_some_iff.1 e
        cases e
        exact ⟨⟨a, c, rest, hf, hj⟩, (targetOf_iff _ _ _ _).2 (by rw [hv]; rfl)⟩
      · rintro ⟨⟨a', c', rest', hf', hj⟩, ht⟩
        obtain ⟨_, e⟩ := firstAt_unique hf hf'
        cases e
        refine ⟨jar, (hl jar).2 hj, ?_⟩
        rw [targetOf_iff] at ht
        obtain ⟨v, hv, hp⟩ := Option.map_eq_some_iff.1 ht
        rw [hv]
        show some (jar, plain v) = _
        rw [hp]

/-- C87: it crashes if and only if a params file ends right after the first `--direct_dependencies`. -/
theorem C87_direct_crash (disk : Bytes → Option Jar) (out : Bytes) (params : Option Bytes) :
    directDeps disk out params = none ↔ ∃ a, FirstAt b!"--direct_dependencies" (a ++ b!"--direct_dependencies") a [] ∧
      params = some (a ++ b!"--direct_dependencies") := by
  have hne : b!"--direct_dependencies" ≠ [] := by simp
  unfold directDeps
  cases params with
  | none => simp
  | some data =>
    cases ha : NameWarn.after b!"--direct_dependencies" data with
    | none =>
      simp only [ha, reduceCtorEq, false_iff]
      rintro ⟨a, hf, e⟩
      cases e
      exact after_none hne ha a [] (by simp)
    | some r =>
      obtain ⟨a, hf⟩ := after_some ha
      simp only [ha]
      cases r with
      | nil =>
        simp only [true_iff]
        have e : data = a ++ b!"--direct_dependencies" := by simpa using hf.1
        subst e
        exact ⟨a, hf, rfl⟩
      | cons c rest =>
        simp only [reduceCtorEq, false_iff]
        rintro ⟨a', hf', e⟩
        cases e
        obtain ⟨_, e⟩ := firstAt_unique hf hf'
        cases e

theorem direct_functional {disk : Bytes → Option Jar} {out : Bytes} {params : Option Bytes} {deps : List (Bytes × Bytes)}
    (h : directDeps disk out params = some deps) {jar l l' : Bytes} (h1 : (jar, l) ∈ deps) (h2 : (jar, l') ∈ deps) : l = l' := by
  cases params with
  | none => cases h; cases h1
  | some data =>
    rw [C87_direct disk out data deps h, targetOf_iff] at h1 h2
    have := h1.2.symm.trans h2.2
    cases this
    rfl

/-! ### the unused ones -/

theorem label_eq {deps : List (Bytes × Bytes)} (hd : ∀ j l l', (j, l) ∈ deps → (j, l') ∈ deps → l = l') (jar l : Bytes) :
    label deps jar = l ↔ (jar, l) ∈ deps ∨ ((∀ l', (jar, l') ∉ deps) ∧ l = []) := by
  unfold label
  cases hf : deps.find? (fun q => q.1 = jar) with
  | none =>
    rw [List.find?_eq_none] at hf
    have hn : ∀ l', (jar, l') ∉ deps := fun l' h => by simpa using hf _ h
    constructor
    · intro h; exact Or.inr ⟨hn, h.symm⟩
    · rintro (h | ⟨_, h⟩)
      · exact absurd h (hn _)
      · exact h.symm
  | some q =>
    have hm := List.mem_of_find?_eq_some hf
    have hq := List.find?_some hf
    simp only [decide_eq_true_eq] at hq
    obtain ⟨j, l0⟩ := q
    simp only at hq
    subst hq
    constructor
    · intro h; simp only at h; subst h; exact Or.inl hm
    · rintro (h | ⟨h, _⟩)
      · exact hd _ _ _ hm h
      · exact absurd hm (h _)

theorem mem_unused_fold (deps : List (Bytes × Bytes)) (l : Bytes) : ∀ (used : List (Kind × Bytes)) (s : List Bytes),
    l ∈ used.foldl (fun s d => if d.1 = .explicit then s.filter (fun l => l ≠ label deps d.2) else s) s ↔
      l ∈ s ∧ ∀ path, (Kind.explicit, path) ∈ used → l ≠ label deps path
  | [], s => by simp
  | (k, p) :: used, s => by
    rw [List.foldl_cons, mem_unused_fold deps l used]
    by_cases hk : k = .explicit
    · subst hk
      simp only [if_true, List.mem_filter, decide_eq_true_eq, List.mem_cons, Prod.mk.injEq, true_and]
      constructor
      · rintro ⟨⟨h1, h2⟩, h3⟩
        refine ⟨h1, ?_⟩
        rintro path (rfl | h)
        · exact h2
        · exact h3 _ h
      · rintro ⟨h1, h2⟩
        exact ⟨⟨h1, h2 _ (Or.inl rfl)⟩, fun path h => h2 _ (Or.inr h)⟩
    · simp only [hk, if_false, List.mem_cons, Prod.mk.injEq, Ne.symm hk, false_and, false_or]

/-- C87: a label is unused if it is that of a direct dependency, and no jar of it was used explicitly. (A jar that is not a direct
dependency counts as one with the empty label.) -/
theorem C87_unused (used : List (Kind × Bytes)) (deps : List (Bytes × Bytes)) (hd : ∀ j l l', (j, l) ∈ deps → (j, l') ∈ deps → l = l')
    (l : Bytes) : l ∈ unusedDeps (some used) deps ↔
      (∃ jar, (jar, l) ∈ deps) ∧ ∀ path, (Kind.explicit, path) ∈ used → (path, l) ∉ deps ∧ (l = [] → ∃ l', (path, l') ∈ deps) := by
  unfold unusedDeps
  rw [mem_unused_fold]
  rw [show l ∈ (deps.map (·.2)).eraseDups ↔ ∃ jar, (jar, l) ∈ deps by rw [List.mem_eraseDups]; simp]
  refine and_congr Iff.rfl (forall_congr' fun path => imp_congr Iff.rfl ?_)
  rw [ne_eq, eq_comm, label_eq hd, not_or, not_and]
  refine and_congr Iff.rfl ?_
  constructor
  · intro h e
    exact Classical.byContradiction fun k => h (fun l' hl => k ⟨l', hl⟩) e
  · intro h k e
    obtain ⟨l', hl⟩ := h e
    exact k _ hl

theorem nodup_eraseDups : ∀ (n : Nat) (l : List Bytes), l.length ≤ n → l.eraseDups.Nodup
  | _, [], _ => by simp
  | n + 1, a :: l, h => by
    rw [List.eraseDups_cons, List.nodup_cons, List.mem_eraseDups]
    refine ⟨by simp, nodup_eraseDups n _ ?_⟩
    have := List.length_filter_le (fun b => !b == a) l
    simp at h
    omega

/-- C87: every label is reported once. -/
theorem C87_unused_once (jdeps : Option (List (Kind × Bytes))) (deps : List (Bytes × Bytes)) : (unusedDeps jdeps deps).Nodup := by
  unfold unusedDeps
  cases jdeps with
  | none => simp
  | some used =>
    have : ∀ (used : List (Kind × Bytes)) (s : List Bytes), s.Nodup →
        (used.foldl (fun s d => if d.1 = .explicit then s.filter (fun l => l ≠ label deps d.2) else s) s).Nodup := by
      intro used
      induction used with
      | nil => intro s h; exact h
      | cons d used ih =>
        intro s h
        rw [List.foldl_cons]
        apply ih
        split
        · exact h.filter _
        · exact h
    exact this used _ (nodup_eraseDups _ _ (Nat.le_refl _))

/-- C87: in the mode for extra actions nothing is ever reported. -/
theorem C87_extra_action_witness (jdeps : Option (List (Kind × Bytes))) : writeUnusedDeps jdeps = [] := by
  unfold writeUnusedDeps unusedDeps
  cases jdeps with
  | none => rfl
  | some used =>
    show List.foldl _ (([] : List (Bytes × Bytes)).map (·.2)).eraseDups used = []
    induction used with
    | nil => rfl
    | cons d used ih =>
      rw [List.foldl_cons]
      split
      · exact ih
      · exact ih

/-! ### the commands -/

theorem runtime_iff (s : StringN) : Runtime s ↔ hasRuntimeComment s.comments = true := by
  unfold Runtime hasRuntimeComment
  rw [List.any_eq_true]
  simp only [Props.Warn.contains_iff]

theorem proposed_iff (s : StringN) (c : Command) : Proposed s c ↔ c = command s := by
  unfold Proposed command
  rw [runtime_iff]
  by_cases h : hasRuntimeComment s.comments = true <;> simp [h]

theorem seen_iff (repo value full : Bytes) : Seen repo value full ↔ full = fullLabel repo value := by
  unfold Seen fullLabel
  have h2 : value.take 2 = b!"//" ↔ ∃ r, value = b!"//" ++ r := by
    constructor
    · intro h
      refine ⟨value.drop 2, ?_⟩
      rw [← h, List.take_append_drop]
    · rintro ⟨r, rfl⟩; rfl
  by_cases h : repo ≠ [] ∧ ∃ r, value = b!"//" ++ r
  · rw [if_pos ⟨h.1, h2.2 h.2⟩]
    constructor
    · rintro (⟨_, _, e⟩ | ⟨_, k | k⟩)
      · exact e
      · exact absurd k h.1
      · exact absurd h.2 k
    · intro e; exact Or.inl ⟨h.1, h.2, e⟩
  · rw [if_neg (fun k => h ⟨k.1, h2.1 k.2⟩)]
    constructor
    · rintro (⟨k1, k2, _⟩ | ⟨e, _⟩)
      · exact absurd ⟨k1, k2⟩ h
      · exact e
    · intro e
      refine Or.inr ⟨e, ?_⟩
      by_cases hr : repo = []
      · exact Or.inl hr
      · exact Or.inr fun k => h ⟨hr, k⟩

theorem listCommands_mem (repo pkg : Bytes) (deps : List Bytes) (c : Command) : ∀ (l : List Expr) (cs : List Command),
    listCommands repo pkg deps l = some cs →
    (c ∈ cs ↔ ∃ s, Expr.string s ∈ l ∧ (∃ dep ∈ deps, Labels.equal (fullLabel repo s.value) dep pkg = true) ∧ c = command s)
  | [], cs, h => by cases h; simp
  | e :: l, cs, h => by
    unfold listCommands at h
    split at h
    · rename_i a b ha hb
      cases h
      rw [List.mem_append, listCommands_mem repo pkg deps c l b hb]
      have he : c ∈ a ↔ ∃ s, e = Expr.string s ∧ (∃ dep ∈ deps, Labels.equal (fullLabel repo s.value) dep pkg = true) ∧ c = command s := by
        unfold elemCommands at ha
        split at ha
        · rename_i s
          split at ha
          · cases ha
          · cases ha
            simp only [List.mem_map, List.mem_filter, Expr.string.injEq, exists_eq_left']
            constructor
            · rintro ⟨d, ⟨h1, h2⟩, h3⟩; exact ⟨⟨d, h1, h2⟩, h3.symm⟩
            · rintro ⟨⟨d, h1, h2⟩, h3⟩; exact ⟨d, ⟨h1, h2⟩, h3.symm⟩
        · rename_i hs
          cases ha
          simp only [List.not_mem_nil, false_iff]
          rintro ⟨s, rfl, _⟩
          exact hs s rfl
      rw [he]
      constructor
      · rintro (⟨s, rfl, h⟩ | ⟨s, hs, h⟩)
        · exact ⟨s, by simp, h⟩
        · exact ⟨s, by simp [hs], h⟩
      · rintro ⟨s, hs, h⟩
        rcases List.mem_cons.1 hs with rfl | hs
        · exact Or.inl ⟨s, rfl, h⟩
        · exact Or.inr ⟨s, hs, h⟩
    · cases h

theorem listCommands_none (repo pkg : Bytes) (deps : List Bytes) : ∀ (l : List Expr),
    listCommands repo pkg deps l = none ↔ repo ≠ [] ∧ deps ≠ [] ∧ ∃ s, Expr.string s ∈ l ∧ s.value.length < 2
  | [] => by simp [listCommands]
  | e :: l => by
    have he : elemCommands repo pkg deps e = none ↔ repo ≠ [] ∧ deps ≠ [] ∧ ∃ s, e = Expr.string s ∧ s.value.length < 2 := by
      unfold elemCommands
      split
      · rename_i s
        split
        · rename_i h
          simp only [true_iff]
          exact ⟨h.1, h.2.2, s, rfl, h.2.1⟩
        · rename_i h
          simp only [reduceCtorEq, false_iff]
          rintro ⟨h1, h2, s', e, h3⟩
          cases e
          exact h ⟨h1, h3, h2⟩
      · rename_i hs
        simp only [reduceCtorEq, false_iff]
        rintro ⟨_, _, s, rfl, _⟩
        exact hs s rfl
    have ih := listCommands_none repo pkg deps l
    have hl : listCommands repo pkg deps (e :: l) = none ↔ elemCommands repo pkg deps e = none ∨ listCommands repo pkg deps l = none := by
      rw [listCommands]
      cases elemCommands repo pkg deps e <;> cases listCommands repo pkg deps l <;> simp
    rw [hl, he, ih]
    constructor
    · rintro (⟨h1, h2, s, rfl, h3⟩ | ⟨h1, h2, s, hs, h3⟩)
      · exact ⟨h1, h2, s, by simp, h3⟩
      · exact ⟨h1, h2, s, by simp [hs], h3⟩
    · rintro ⟨h1, h2, s, hs, h3⟩
      rcases List.mem_cons.1 hs with rfl | hs
      · exact Or.inl ⟨h1, h2, s, rfl, h3⟩
      · exact Or.inr ⟨h1, h2, s, hs, h3⟩

/-- C87: the commands that are printed for a rule. -/
theorem C87_commands (repo pkg : Bytes) (deps : List Bytes) (e : Expr) (cs : List Command) (h : printCommands repo pkg deps e = some cs)
    (c : Command) : c ∈ cs ↔ ∃ s full dep, InLists (.string s) e ∧ Seen repo s.value full ∧ dep ∈ deps ∧
      Props.Labels.denotes full pkg = Props.Labels.denotes dep pkg ∧ Proposed s c := by
  rw [listCommands_mem repo pkg deps c _ cs h]
  have hm : ∀ x, x ∈ (Edit.allLists e).flatten ↔ InLists x e := fun x => by rw [List.mem_flatten, mem_allLists]
  constructor
  · rintro ⟨s, hs, ⟨dep, hdep, hq⟩, hc⟩
    exact ⟨s, _, dep, (hm _).1 hs, (seen_iff _ _ _).2 rfl, hdep, (Props.Labels.C07_equal_iff_denotes _ _ _).1 hq, (proposed_iff _ _).2 hc⟩
  · rintro ⟨s, full, dep, hs, hf, hdep, hq, hc⟩
    rw [seen_iff] at hf
    subst hf
    exact ⟨s, (hm _).2 hs, ⟨dep, hdep, (Props.Labels.C07_equal_iff_denotes _ _ _).2 hq⟩, (proposed_iff _ _).1 hc⟩

/-- C87: it crashes if and only if the rule is in another repository, something is unused and an element of `deps` is shorter than
two bytes. -/
theorem C87_commands_crash (repo pkg : Bytes) (deps : List Bytes) (e : Expr) : printCommands repo pkg deps e = none ↔
    repo ≠ [] ∧ deps ≠ [] ∧ ∃ s, InLists (.string s) e ∧ s.value.length < 2 := by
  unfold printCommands
  rw [listCommands_none]
  simp only [List.mem_flatten, mem_allLists]

/-- C87: what is proposed for a target. -/
theorem C87_run (disk : Bytes → Option Jar) (out data : Bytes) (used : List (Kind × Bytes)) (repo pkg : Bytes) (e : Expr) (cs : List Command)
    (h : run disk out (some data) (some used) repo pkg e = some cs) (c : Command) :
    c ∈ cs ↔ ∃ s full jar l, InLists (.string s) e ∧ Seen repo s.value full ∧ DirectJar data jar ∧ TargetOf disk out jar l ∧
      Props.Labels.denotes full pkg = Props.Labels.denotes l pkg ∧ Proposed s c ∧
      ∀ path, (Kind.explicit, path) ∈ used →
        ¬ (DirectJar data path ∧ TargetOf disk out path l) ∧ (l = [] → ∃ l', DirectJar data path ∧ TargetOf disk out path l') := by
  unfold run at h
  cases hd : directDeps disk out (some data) with
  | none => rw [hd] at h; cases h
  | some deps =>
    rw [hd] at h
    rw [C87_commands _ _ _ _ _ h]
    have hf : ∀ j l l', (j, l) ∈ deps → (j, l') ∈ deps → l = l' := fun j l l' => direct_functional hd
    have hm := C87_direct disk out data deps hd
    constructor
    · rintro ⟨s, full, dep, h1, h2, h3, h4, h5⟩
      rw [C87_unused _ _ hf] at h3
      obtain ⟨⟨jar, hj⟩, hu⟩ := h3
      refine ⟨s, full, jar, dep, h1, h2, ((hm _ _).1 hj).1, ((hm _ _).1 hj).2, h4, h5, fun path hp => ?_⟩
      obtain ⟨a, b⟩ := hu path hp
      exact ⟨fun k => a ((hm _ _).2 k), fun k => (b k).imp fun l' hl => (hm _ _).1 hl⟩
    · rintro ⟨s, full, jar, l, h1, h2, h3, h4, h5, h6, h7⟩
      refine ⟨s, full, l, h1, h2, ?_, h5, h6⟩
      rw [C87_unused _ _ hf]
      refine ⟨⟨jar, (hm _ _).2 ⟨h3, h4⟩⟩, fun path hp => ?_⟩
      obtain ⟨a, b⟩ := h7 path hp
      exact ⟨fun k => a ((hm _ _).1 k), fun k => (b k).imp fun l' hl => (hm _ _).2 hl⟩

/-- C87: without a params file or a jdeps file nothing is proposed. -/
theorem C87_no_input (disk : Bytes → Option Jar) (out : Bytes) (params : Option Bytes) (jdeps : Option (List (Kind × Bytes)))
    (repo pkg : Bytes) (e : Expr) (cs : List Command) (h : run disk out params jdeps repo pkg e = some cs)
    (hn : params = none ∨ jdeps = none) : cs = [] := by
  have key : printCommands repo pkg [] e = some cs → cs = [] := by
    intro h
    apply List.eq_nil_iff_forall_not_mem.2
    intro c hc
    rw [C87_commands _ _ _ _ _ h] at hc
    obtain ⟨s, full, dep, _, _, hdep, _⟩ := hc
    cases hdep
  unfold run at h
  rcases hn with rfl | rfl
  · have : unusedDeps jdeps [] = [] := C87_extra_action_witness jdeps
    simp only [directDeps, this] at h
    exact key h
  · cases hd : directDeps disk out params with
    | none => rw [hd] at h; cases h
    | some deps => rw [hd] at h; exact key h

/-! ### Examples -/

/-- a jar with a manifest whose label is folded -/
def exampleJar (manifest : Bytes) : Option Jar := some [(b!"A.class", some []), (b!"META-INF/MANIFEST.MF", some manifest)]

/-- three jars -/
def exampleDisk (p : Bytes) : Option Jar :=
  if p = b!"/out/a.jar" then exampleJar b!"Manifest-Version: 1.0\r\nTarget-Label: @//lib:a_very\r\n _long_name\r\nX: y\r\n"
  else if p = b!"/out/b.jar" then exampleJar b!"Target-Label: //lib:b\n"
  else if p = b!"/out/c.jar" then exampleJar b!"Target-Label: @@r//c:c\n"
  else none

/-- C87: one dependency is used, one is not, one is needed at run time. -/
theorem C87_run_example :
    run exampleDisk b!"/out" (some b!"--x\n--direct_dependencies\nbazel-out/a.jar\nbazel-out/b.jar\nbazel-out/c.jar\n--y\nbazel-out/d.jar\n")
      (some [(.explicit, b!"bazel-out/b.jar"), (.implicit, b!"bazel-out/a.jar")]) [] b!"lib"
      (.list {} {} [.string { value := b!":a_very_long_name" }, .string { value := b!"b" },
        .string { value := b!"@r//c", comments := { suffix := [⟨{}, b!"# Runtime dep"⟩] } }] {} false) =
      some [.remove b!":a_very_long_name", .move b!"@r//c"] := by
  decide +kernel

/-- C87: the key is not looked for at the start of a line only. -/
theorem C87_key_witness : manifestValue b!"Target-Label" b!"Old-Target-Label: //x\nTarget-Label: //y\n" = some b!"//x" := by
  decide +kernel

/-- C87: in a target of another repository, a short element crashes it. -/
theorem C87_crash_witness : printCommands b!"r" b!"p" [b!"//q"] (.list {} {} [.string { value := b!"x" }] {} false) = none := by
  decide +kernel

end Verif.Props.UnusedDeps
