import Verif.Proofs.NeatStep
import Verif.Proofs.ParsedFit
import Verif.Proofs.ParsedFile
import Verif.Props.Printed
import Verif.Props.Blank
/-
C51, C52, C63 for files that were parsed: what formatting a file does to its comments and lines, and that it succeeds.
-/
namespace Verif.Printed
open Verif Verif.Syntax Verif.Lexer Verif.Print Verif.Parser Verif.Grammar Verif.Props.Grammar Verif.Comm Verif.Round Verif.Induct Verif.Props.Comments
open Verif.Quote Verif.Props.Quote

/-! ## Specification -/

/-- In no string literal of the source is a backslash followed by a character outside Latin-1. -/
def PlainEscapes (data : Bytes) : Prop :=
  ∀ ts st, tokens data = .ok ts st → ∀ t ∈ ts, t.kind = K.string → ¬ EscapesNonLatin1 t.tok

/-- No string literal, as it is printed, has a space at the end of a line. -/
def TidyStrings (data : Bytes) : Prop :=
  ∀ ts st, tokens data = .ok ts st → ∀ t ∈ ts, t.kind = K.string → ∀ s, printString t.tok t.str t.triple = some s → ¬ TrailingBlank s

/-! ## Parsed files -/

theorem printed_fresh (v : Bytes) (b : Bool) : printString [] v b = some (quote v b) := by
  cases h : printString [] v b with
  | none =>
    obtain ⟨_, _, _, h⟩ := (C03_print_string_crash_iff [] v b (.inl rfl)).1 h
    cases h
  | some s =>
    unfold printString at h
    simp only at h
    split at h
    · rename_i hu
      exact absurd hu.1 (by decide)
    · cases h; rfl

theorem fit_strings_any {data : Bytes} (hs : PlainEscapes data) : ∀ ts st, tokens data = .ok ts st → ∀ t ∈ ts, t.kind = K.string →
    fitString (fun _ => true) { value := t.str, triple := t.triple, token := t.tok } = true ∧ fitString (fun _ => true) { value := t.str } = true := by
  intro ts st ht t hm hk
  rw [fitString_any, fitString_any]
  dsimp only
  refine ⟨?_, by rw [printed_fresh]; rfl⟩
  rw [Option.isSome_iff_ne_none]
  intro hn
  exact hs ts st ht t hm hk ((C03_print_string_crash_iff _ _ _ (.inr ((tokens_good ht t hm).string hk))).1 hn).2.2.2

theorem parsed_whole {fuel : Nat} {ft : FileType} {data : Bytes} {f : File} (h : parseFile fuel ft data = some f) (hb : data.getLast? ≠ some 92)
    (hs : PlainEscapes data) : wholeO f.stmts = true := by
  rw [← fitO_any]
  exact parsed_fit (fun _ _ => rfl) h hb (fit_strings_any hs)

theorem parsed_neat {fuel : Nat} {ft : FileType} {data : Bytes} {f : File} (h : parseFile fuel ft data = some f) :
    neatS f.stmts = true ∧ f.comments.suffix = [] := by
  unfold parseFile at h
  cases ht : tokens data with
  | ok ts st =>
    rw [ht] at h
    dsimp only at h
    cases hr : run fuel (initCfg ts) with
    | none => rw [hr] at h; cases h
    | some l =>
      rw [hr] at h
      cases h
      obtain ⟨v, hv, rfl⟩ := (C62_iff data ts st l ht).1 ⟨fuel, hr⟩
      obtain ⟨cs, h1, h2⟩ := Props.Lexer.C48_tiles data ts st ht
      have hcol : (([] : Bytes) ++ (data ++ [10])).head? ≠ some 58 := by
        intro e
        obtain ⟨t, r, rfl, hk⟩ := tiled_colon h1 e
        rw [colon_first t r hk] at hr
        cases hr
      have hG : ColonToks ts := fun t ht hk => (tiled_pos h1 hcol t ht).2 hk
      have hn : neatS v.exprs = true := g_induct colonToks_cond neat_steps (C61_refines hv) hG
      exact ⟨neatS_lin _ (neatS_suf _ hn _) _, rfl⟩
  | _ => rw [ht] at h; cases h

theorem neatS_last {l : List Expr} (h : neatS l = true) : ∀ x ∈ l, neat x = true := by
  induction l with
  | nil => intro x hx; cases hx
  | cons y l ih =>
    simp only [neatS, Bool.and_eq_true] at h
    intro x hx
    rcases List.mem_cons.1 hx with rfl | hx
    · exact h.1
    · exact ih h.2 x hx

theorem neat_endsWell {f : File} (h : neatS f.stmts = true) : endsWell f = true := by
  unfold endsWell
  split
  · rename_i c s hg
    have hm := (List.mem_filter.1 (List.mem_of_getLast? hg)).1
    have := neatS_last h _ hm
    rw [show c.suffix.isEmpty = true from this]; rfl
  · rfl

/-! ## Theorems -/

/-- **C63** A file that parses, does not end with a backslash, and has no string literal with a backslash before a character outside Latin-1, is printed. -/
theorem C63_parsed (fuel : Nat) (ft : FileType) (data : Bytes) (f : File) (h : parseFile fuel ft data = some f) (hb : data.getLast? ≠ some 92)
    (hs : PlainEscapes data) : ∃ out, format f = some out :=
  C63_prints f (parsed_whole h hb hs)

theorem tiled_text {pre s ts cs} (h : Props.Lexer.Tiled pre s ts cs) : ∀ t ∈ ts, ∀ b ∈ t.tok, b ∈ s := by
  induction h with
  | eof pre t _ ht => intro u hu b hb; rw [List.mem_singleton.1 hu, ht] at hb; cases hb
  | blank pre c s ts cs _ _ ih => intro u hu b hb; exact List.mem_cons_of_mem _ (ih u hu b hb)
  | continued pre s ts cs _ ih => intro u hu b hb; exact List.mem_append_right _ (ih u hu b hb)
  | comment pre text s ts cs _ _ _ ih => intro u hu b hb; exact List.mem_append_right _ (ih u hu b hb)
  | tok pre t s ts cs _ _ _ _ ih =>
    intro u hu b hb
    rcases List.mem_cons.1 hu with rfl | hu
    · exact List.mem_append_left _ hb
    · exact List.mem_append_right _ (ih u hu b hb)

theorem escapes_high {s : Bytes} (h : EscapesNonLatin1 s) : ∃ b ∈ s, 0x80 ≤ b := by
  induction h with
  | here d l h _ => exact ⟨d, by simp, h⟩
  | plain c l _ _ ih => obtain ⟨b, hb, h⟩ := ih; exact ⟨b, List.mem_cons_of_mem _ hb, h⟩
  | skip d l _ _ ih => obtain ⟨b, hb, h⟩ := ih; exact ⟨b, List.mem_cons_of_mem _ (List.mem_cons_of_mem _ hb), h⟩

/-- **C63** In particular every ASCII file that parses and does not end with a backslash is printed. -/
theorem C63_ascii (fuel : Nat) (ft : FileType) (data : Bytes) (f : File) (h : parseFile fuel ft data = some f) (hb : data.getLast? ≠ some 92)
    (hs : ∀ b ∈ data, b < 0x80) : ∃ out, format f = some out := by
  refine C63_parsed fuel ft data f h hb ?_
  intro ts st ht t hm hk he
  obtain ⟨cs, h1, _⟩ := Props.Lexer.C48_tiles data ts st ht
  obtain ⟨b, hb, h2⟩ := escapes_high he
  rcases List.mem_append.1 (tiled_text h1 t hm b hb) with h3 | h3
  · have := hs b h3
    exact absurd this (UInt8.not_lt.2 h2)
  · rw [List.mem_singleton.1 h3] at h2
    exact absurd h2 (by decide)

/-- **C51** Every comment of a parsed file is in the printed file, but for those that `lostL` names. -/
theorem C51_parsed (fuel : Nat) (ft : FileType) (data : Bytes) (f : File) (out : Bytes) (h : parseFile fuel ft data = some f) (hb : data.getLast? ≠ some 92)
    (hs : PlainEscapes data) (ho : format f = some out) : ∃ kept, (kept ++ lostL f.stmts).Perm (comF f) ∧ ShowsAll kept out := by
  obtain ⟨h1, h2⟩ := parsed_neat h
  refine ⟨_, ?_, C51_file f out (parsed_whole h hb hs) (neat_endsWell h1) ho⟩
  rw [List.perm_iff_count]
  intro d
  have := comS_count d f.stmts h1
  simp only [comF, comC, List.count_append, h2, List.count_nil]
  omega

/-- **C51** The same for the comments in the source text: `ts` and `cs` are its tokens and the comments between them; some comments are tokens (`tokC`). -/
theorem C51_source (fuel : Nat) (ft : FileType) (data : Bytes) (f : File) (out : Bytes) (h : parseFile fuel ft data = some f) (hb : data.getLast? ≠ some 92)
    (hs : PlainEscapes data) (ho : format f = some out) :
    ∃ ts cs kept, Props.Lexer.Tiled [] (data ++ [10]) ts cs ∧ ((kept ++ lostL f.stmts).filter (fun c => !c.token.isEmpty)).Perm (tokC ts ++ cs) ∧
      ShowsAll kept out := by
  obtain ⟨kept, h1, h2⟩ := C51_parsed fuel ft data f out h hb hs ho
  obtain ⟨ts, cs, h3, h4⟩ := C46_file fuel ft data f h
  exact ⟨ts, cs, kept, h3, (h1.filter _).trans h4, h2⟩


/-! ### C52 -/

theorem tidy_plain (s : Bytes) (h : 10 ∉ s) : tidyText s = true := by
  unfold tidyText
  rw [tidy_noNL s h, Bool.and_true, bne_iff_ne]
  intro e
  exact h (List.mem_of_mem_head? e)

theorem fit_strings_tidy {data : Bytes} (hs : PlainEscapes data) (ht : TidyStrings data) : ∀ ts st, tokens data = .ok ts st → ∀ t ∈ ts, t.kind = K.string →
    fitString tidyText { value := t.str, triple := t.triple, token := t.tok } = true ∧ fitString tidyText { value := t.str } = true := by
  intro ts st hts t hm hk
  have h1 := (fit_strings_any hs ts st hts t hm hk).1
  rw [fitString_any] at h1
  dsimp only at h1
  unfold fitString
  dsimp only
  constructor
  · cases hp : printString t.tok t.str t.triple with
    | none => rw [hp] at h1; cases h1
    | some s =>
      dsimp only
      have hl := (tokens_good hts t hm).string hk
      obtain ⟨g1, g2⟩ := C03_print_string _ _ _ _ (.inr hl) hp
      have hx := g2 [] (by simp) (by simp)
      rw [List.append_nil] at hx
      obtain ⟨q, raw, x, hq, hQ, rfl⟩ := lexed_shape ⟨s, [], hx⟩
      unfold tidyText
      rw [(tidy_iff _).2 (ht ts st hts t hm hk _ hp), Bool.and_true, bne_iff_ne]
      cases raw with
      | true => simp
      | false => cases hQ <;> rcases hq with rfl | rfl <;> simp
  · rw [printed_fresh]
    refine tidy_plain _ (fun h => ?_)
    rcases C02_quote_ascii t.str false 10 h with h | h
    · exact absurd h.1 (by decide)
    · cases h.1

theorem bare_any (T : Bytes → Bool) (x : Expr) : fit T false x = true → fit (fun _ => true) true x = true → fit T true x = true := by
  refine Expr.rec (motive_1 := fun x => fit T false x = true → fit (fun _ => true) true x = true → fit T true x = true)
    (motive_2 := fun l => (fitL T false l = true → fitL (fun _ => true) true l = true → fitL T true l = true) ∧
      (fitO T false l = true → fitO (fun _ => true) true l = true → fitO T true l = true) ∧
      (fitH T false l = true → fitH (fun _ => true) true l = true → fitH T true l = true))
    ?_ ?_ ?_ ?_ ?_ ?_ ?_ ?_ ?_ ?_ ?_ ?_ ?_ ?_ ?_ ?_ ?_ ?_ ?_ ?_ ?_ ?_ ?_ ?_ ?_ ?_ ?_ ?_ ?_ ?_ ?_ ?_ ?_ x
  all_goals intros
  all_goals simp_all [fit, fitL, fitO, fitH]
  all_goals grind

theorem bareO_any (T : Bytes → Bool) : ∀ l : List Expr, fitO T false l = true → fitO (fun _ => true) true l = true → fitO T true l = true
  | [], _, _ => rfl
  | x :: l, h1, h2 => by
    have := bare_any T x
    have := bareO_any T l
    simp only [fitO, Bool.and_eq_true, Bool.or_eq_true] at h1 h2 ⊢
    grind

theorem tiled_noNL {pre s : Bytes} {ts cs} (h1 : Props.Lexer.Tiled pre s ts cs) {c : Comment} (hn : 10 ∈ c.token) (hm : c ∈ tokC ts ++ cs) : False := by
  induction h1 with
  | eof pre t hk _ _ =>
    simp [tokC, hk, show K.eof ≠ K.comment by decide] at hm
  | blank _ _ _ _ _ _ _ ih => exact ih hm
  | continued _ _ _ _ _ ih => exact ih hm
  | comment pre text s ts cs hall _ _ ih =>
    rcases List.mem_append.1 hm with hm | hm
    · exact ih (List.mem_append_left _ hm)
    · rcases List.mem_cons.1 hm with rfl | hm
      · have := List.all_eq_true.1 hall 10 hn
        exact absurd this (by decide)
      · exact ih (List.mem_append_right _ hm)
  | tok pre t s ts cs _ _ htt _ ih =>
    have hcons : tokC (t :: ts) = (if t.kind = K.comment then [⟨t.pos, t.tok⟩] else []) ++ tokC ts := by
      unfold tokC
      rw [List.filterMap_cons]
      by_cases hk : t.kind = K.comment
      · rw [if_pos hk, if_pos hk]; rfl
      · rw [if_neg hk, if_neg hk]; rfl
    rw [hcons, List.append_assoc] at hm
    rcases List.mem_append.1 hm with hm | hm
    · by_cases hk : t.kind = K.comment
      · rw [if_pos hk] at hm
        rw [List.mem_singleton.1 hm] at hn
        cases htt with
        | fixed hx =>
          rw [hk] at hx
          exact absurd rfl (fixed_kind _ hx).2.2.2
        | ident c s h => rw [hk] at h; exact absurd h (by decide)
        | int c s h => rw [hk] at h; exact absurd h (by decide)
        | string r d b h => rw [hk] at h; exact absurd h (by decide)
        | comment s h e hs =>
          dsimp only at hn
          rw [e] at hn
          rcases List.mem_cons.1 hn with h | h
          · exact absurd h (by decide)
          · exact hs h
      · rw [if_neg hk] at hm; cases hm
    · exact ih hm

theorem noNL_comments {fuel : Nat} {ft : FileType} {data : Bytes} {f : File} (h : parseFile fuel ft data = some f) : ∀ c ∈ comF f, 10 ∉ c.token := by
  intro c hc hn
  obtain ⟨ts, cs, h1, h2⟩ := C46_file fuel ft data f h
  have hm : c ∈ tokC ts ++ cs := h2.mem_iff.1 (List.mem_filter.2 ⟨hc, by cases ht : c.token with | nil => rw [ht] at hn; cases hn | cons => rfl⟩)
  exact tiled_noNL h1 hn hm

/-- **C52** No line of the printed file ends with a space, unless one does inside a string literal or there is a comment inside a tuple without parentheses. -/
theorem C52_parsed (fuel : Nat) (ft : FileType) (data : Bytes) (f : File) (out : Bytes) (h : parseFile fuel ft data = some f) (hb : data.getLast? ≠ some 92)
    (hs : PlainEscapes data) (ht : TidyStrings data) (hbare : fitO (fun _ => true) true f.stmts = true) (ho : format f = some out) : ¬ TrailingBlank out := by
  have h1 := parsed_fit (T := tidyText) tidy_plain h hb (fit_strings_tidy hs ht)
  refine C52_no_trailing_blanks f out (bareO_any _ _ h1 hbare) ?_ ho
  intro c hc
  obtain ⟨n1, n2⟩ := parsed_neat h
  refine noNL_comments h c ?_
  have := comS_count c f.stmts n1
  have hp : 0 < (f.comments.before ++ (shownS f.stmts ++ f.comments.after)).count c := List.count_pos_iff.2 hc
  rw [← List.count_pos_iff]
  simp only [comF, comC, List.count_append] at hp ⊢
  omega

/-! ## Examples -/

/-- a file with comments in many places -/
def exSrc : Bytes := b!"# top\n\nx = [ # a\n  1, # b\n  # c\n]\n\ndef f(a): # d\n  # e\n  return a # f\n# g\n"

/-- the hypotheses of `C63_parsed`, `C51_parsed` and `C52_parsed` hold for it, nothing is lost, and this is what is printed -/
example : ((parseFile 400 .default exSrc).map fun f => (format f, lostL f.stmts, fitO (fun _ => true) true f.stmts, fitO tidyText false f.stmts)) =
      some (some b!"# top\n\nx = [\n    # a\n    1,  # b\n    # c\n]\n\ndef f(a):  # d\n    # e\n    return a  # f\n\n# g\n", [], true, true) ∧ exSrc.getLast? ≠ some 92 ∧
    (∀ b ∈ exSrc, b < 0x80) := by
  refine ⟨by decide +kernel, by decide +kernel, by decide +kernel⟩

/-- **C51** A comment in a load statement that formatting removes. -/
theorem C51_lost_load :
    ((parseFile 400 .default b!"load(\":x.bzl\", a = # c\n \"a\")\n").map fun f => (format f, (lostL f.stmts).map (·.token))) =
      some (some b!"load(\n    \":x.bzl\",\n    \"a\",\n)\n", [b!"# c"]) := by
  decide +kernel

/-- **C51** A comment after a nested `if` that formatting removes, because it prints `elif`. -/
theorem C51_lost_elif :
    ((parseFile 400 .default b!"if x:\n  y\nelse:\n  if z: w\n  # c\n").map fun f => (format f, (lostL f.stmts).map (·.token))) =
      some (some b!"if x:\n    y\nelif z:\n    w\n", [b!"# c"]) := by
  decide +kernel

/-- **C51** A comment that moves to another statement: after the colon of a function definition. -/
theorem C51_moved :
    (parseFile 400 .default b!"x = 1\ndef f(): # c\n  pass\n").bind format = some b!"x = 1  # c\n\ndef f():\n    pass\n" := by
  decide +kernel

end Verif.Printed
