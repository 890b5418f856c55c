import Verif.Proofs.QuotePrint
/-
Property theorems C01, C02, C03 (string literals).
-/
namespace Verif.Props.Quote
open Verif Verif.Quote Verif.Scan

/-- C01: unquoting the quoted form of any byte string, in either mode, succeeds and gives back exactly that
byte string and the same triple flag. -/
theorem C01_unquote_quote (s : Bytes) (triple : Bool) :
    unquote (quote s triple) = { s := s, triple := triple, err := false } := by
  cases triple with
  | false =>
    have h := unquote_single 34 (.inl rfl) (quoteBody false s) false (quoteBody_head s)
    rw [decode_quoteBody] at h
    simpa [quote] using h
  | true =>
    have h := unquote_triple 34 (.inl rfl) (quoteBody true s) false
    rw [decode_quoteBody] at h
    simpa [quote] using h

/-- C01, corollary: quoting is injective (different values never print as the same literal). -/
theorem C01_quote_injective (s s' : Bytes) (t t' : Bool) (h : quote s t = quote s' t') : s = s' ∧ t = t' := by
  have h1 := C01_unquote_quote s t
  rw [h, C01_unquote_quote] at h1
  simp at h1
  exact ⟨h1.1.symm, h1.2.symm⟩

-- a string with quotes at both ends, a backslash, a newline, a NUL and a high byte
example : unquote (quote b!"\"\"a\\\n\"" true) = ⟨b!"\"\"a\\\n\"", true, false⟩ := by decide
example : quote ([34, 0, 49, 255, 10]) false = b!"\"\\\"\\0001\\377\\n\"" := by decide

/-- C02: scanning a quoted string followed by any further input consumes exactly the quoted string.
The only exception is the empty one-line literal followed by another double quote. -/
theorem C02_quote_single_token (s : Bytes) (triple : Bool) (rest : Bytes)
    (hrest : s = [] → triple = false → rest.head? ≠ some c!"\"") :
    scanString (quote s triple ++ rest) = some (quote s triple, rest) := by
  have hhead : ∀ l, scanString (34 :: l) = scanQuoted (34 :: l) := fun l => by simp [scanString]
  have hs : scanQuoted (quote s triple ++ rest) = some (quote s triple, rest) := by
    cases triple with
    | true =>
      have h := scanTriple_quoteBody s rest true rfl false false (by simp)
      simp [quote, scanQuoted, h]
    | false =>
      by_cases hs : s = []
      · exact (quote_QTok s false).rescan (.inl rfl) rest (hrest hs rfl)
      · have h := scanSingle_quoteBody s rest
        have hb := quoteBody_head s
        have hn : quoteBody false s ≠ [] := fun e => hs ((quoteBody_eq_nil false s).1 e)
        have e : quote s false ++ rest = 34 :: (quoteBody false s ++ 34 :: rest) := by simp [quote]
        have e' : quote s false = 34 :: (quoteBody false s ++ [34]) := by simp [quote]
        rw [e, e']
        cases hB : quoteBody false s with
        | nil => exact absurd hB hn
        | cons b B =>
          rw [hB] at h hb
          have hb' : b ≠ 34 := by simpa using hb
          cases hB' : B ++ 34 :: rest with
          | nil => simp at hB'
          | cons x l =>
            simp only [List.cons_append, hB'] at h ⊢
            simp [scanQuoted, hb', h]
  cases triple <;> simpa [quote, hhead] using hs

/-- C02, the exception is real: `""` directly followed by `"` starts a triple-quoted literal. -/
theorem C02_exception_witness : scanString (quote [] false ++ b!"\"") = none := by decide

/-- C02: the quoted form contains only bytes 0x20..0x7f, plus newlines in triple mode. -/
theorem C02_quote_ascii (s : Bytes) (triple : Bool) :
    ∀ b ∈ quote s triple, (0x20 ≤ b ∧ b < 0x80) ∨ (triple = true ∧ b = c!"\n") := by
  intro b hb
  have hq : ∀ b ∈ (if triple then b!"\"\"\"" else b!"\""), (0x20 ≤ b ∧ b < 0x80) ∨ (triple = true ∧ b = c!"\n") := by
    intro b hb; left; cases triple <;> simp at hb <;> subst hb <;> decide
  simp only [quote, List.mem_append] at hb
  rcases hb with (hb | hb) | hb
  · exact hq b hb
  · exact quoteBody_ascii triple s b hb
  · exact hq b hb

example : scanString (quote b!"a\"\"" true ++ b!", x") = some (b!"\"\"\"a\\\"\\\"\"\"\"", b!", x") := by decide

/-- A token that the lexer can produce: the text consumed by the string scanner on some input. -/
def LexedToken (tok : Bytes) : Prop := ∃ inp rest, scanString inp = some (tok, rest)

theorem lexed_shape {tok : Bytes} (h : LexedToken tok) :
    ∃ (q : UInt8) (raw : Bool) (t : Bytes), (q = 34 ∨ q = 39) ∧ QTok q t ∧ tok = (if raw then [114] else []) ++ t := by
  obtain ⟨inp, rest, h⟩ := h
  unfold scanString at h
  split at h
  · simp at h
  · split at h
    · rename_i c l hc
      subst hc
      obtain ⟨t', h1, rfl⟩ := pre_eq_some (a := [114]) h
      obtain ⟨_, q, hq, hQ⟩ := scanQuoted_shape _ _ _ h1
      exact ⟨q, true, t', hq, hQ, rfl⟩
    · obtain ⟨_, q, hq, hQ⟩ := scanQuoted_shape _ _ _ h
      exact ⟨q, false, tok, hq, hQ, by simp⟩

/-- A printed literal is correct: it decodes to the value and flag, and it is one token. -/
def GoodLiteral (out value : Bytes) (triple : Bool) : Prop :=
  unquote out = { s := value, triple := triple, err := false } ∧
  ∀ rest : Bytes, rest.head? ≠ some c!"\"" → rest.head? ≠ some c!"'" → scanString (out ++ rest) = some (out, rest)

theorem scan_prefix {q : UInt8} (hq : q = 34 ∨ q = 39) {t : Bytes} (h : QTok q t) (raw : Bool) (rest : Bytes)
    (h1 : rest.head? ≠ some 34) (h2 : rest.head? ≠ some 39) :
    scanString ((if raw then [114] else []) ++ t ++ rest) = some ((if raw then [114] else []) ++ t, rest) := by
  have hr := h.rescan hq rest (by rcases hq with rfl | rfl <;> assumption)
  cases raw with
  | true => simp [scanString, hr]
  | false =>
    have hne : ∃ l, t = q :: l := by cases h <;> exact ⟨_, rfl⟩
    obtain ⟨l, rfl⟩ := hne
    have : q ≠ 114 := by rcases hq with rfl | rfl <;> decide
    simpa [scanString, this] using hr

theorem quote_good (value : Bytes) (triple : Bool) : GoodLiteral (quote value triple) value triple :=
  ⟨C01_unquote_quote value triple, fun rest h1 h2 => by
    have := scan_prefix (.inl rfl) (quote_QTok value triple) false rest h1 h2
    simpa using this⟩

theorem decode_raw (B : Bytes) (tr : Bool) : decode true B tr = ⟨B, tr, false⟩ := by simp [decode]

/-- C03: for every string node whose token came from the lexer (or is absent) and for *every* value and triple
flag (also edited ones), whatever text the printer writes decodes to the node's value and flag, and is scanned
as exactly one token. (`none` is a crash; see below for when that happens.) -/
theorem C03_print_string (tok value : Bytes) (triple : Bool) (out : Bytes)
    (htok : tok = [] ∨ LexedToken tok) (hout : printString tok value triple = some out) :
    GoodLiteral out value triple := by
  unfold printString at hout
  simp only at hout
  split at hout
  · rename_i hu
    obtain ⟨hu1, hu2, hu3⟩ := hu
    have hunq : unquote tok = ⟨value, triple, false⟩ := by
      rw [← hu1, ← hu2, ← hu3]
    rcases htok with rfl | htok
    · simp [unquote, unquoteRest] at hu1
    obtain ⟨q, raw, t, hq, hQ, htk⟩ := lexed_shape htok
    have hself : GoodLiteral tok value triple :=
      ⟨hunq, fun rest h1 h2 => htk ▸ scan_prefix hq hQ raw rest h1 h2⟩
    obtain ⟨B, tr, hB, hdec⟩ := hQ.unquote hq raw
    have hq92 : q ≠ 92 := by rcases hq with rfl | rfl <;> decide
    split at hout
    · -- raw literal
      rename_i hr
      have hraw : raw = true := by
        cases raw with
        | true => rfl
        | false =>
          rw [htk] at hr
          rcases hB with ⟨rfl, _, _⟩ | ⟨rfl, _, _⟩ <;> rcases hq with rfl | rfl <;> simp at hr
      subst hraw
      rw [htk, hdec, decode_raw] at hunq
      simp only [Unquoted.mk.injEq, and_true] at hunq
      obtain ⟨rfl, rfl⟩ := hunq
      split at hout
      · rename_i hs
        simp only [Bool.and_eq_true, Bool.not_eq_true'] at hs
        obtain ⟨hs1, hs2⟩ := hs
        have hno : (34 : UInt8) ∉ B := by simpa using hs2
        have hq39 : q = 39 := by
          rcases hq with rfl | rfl
          · exfalso
            simp only [hasSuffix, List.isSuffixOf_iff_suffix] at hs1
            rw [htk] at hs1
            obtain ⟨X, hX⟩ := hs1
            rcases hB with ⟨rfl, _, _⟩ | ⟨rfl, _, _⟩
            · have := congrArg List.getLast? hX
              simp [List.getLast?_append, List.getLast?_cons] at this
            · have := congrArg List.getLast? hX
              simp [List.getLast?_append, List.getLast?_cons] at this
          · rfl
        subst hq39
        rcases hB with ⟨rfl, rfl, hSB⟩ | ⟨rfl, rfl, hEB⟩
        · -- one-line
          have hns : hasSuffix (([114] : Bytes) ++ ([39] ++ B ++ [39])) b!"'''" = false := by
            cases hc : hasSuffix (([114] : Bytes) ++ ([39] ++ B ++ [39])) b!"'''" with
            | false => rfl
            | true =>
              simp only [hasSuffix, List.isSuffixOf_iff_suffix] at hc
              obtain ⟨X, hX⟩ := hc
              exact absurd hX.symm (by have := hSB.not_suffix (by decide) (by decide) X; simpa using this)
          rw [if_pos rfl] at htk
          rw [htk, hns] at hout
          rw [if_neg (by simp), if_neg (by simp)] at hout
          have e : b!"r\"" ++ ((([114] : Bytes) ++ ([39] ++ B ++ [39])).drop 2).take ((([114] : Bytes) ++ ([39] ++ B ++ [39])).length - 3) ++ b!"\"" = [114] ++ ([34] ++ B ++ [34]) := by
            simp
          rw [e] at hout
          simp only [Option.some.injEq] at hout
          subst hout
          have hSB' : SB 34 B := hSB.swap hno
          refine ⟨?_, fun rest h1 h2 => scan_prefix (.inl rfl) (QTok.single B hSB') true rest h1 h2⟩
          have := unquote_single 34 (.inl rfl) B true (hSB'.head (by decide))
          rw [decode_raw] at this
          exact this
        · -- triple
          have hns : hasSuffix (([114] : Bytes) ++ ([39, 39, 39] ++ B ++ [39, 39, 39])) b!"'''" = true := by
            simp only [hasSuffix, List.isSuffixOf_iff_suffix]
            exact ⟨[114, 39, 39, 39] ++ B, by simp⟩
          rw [if_pos rfl] at htk
          rw [htk, hns] at hout
          rw [if_pos (by simp), if_neg (by simp)] at hout
          have e : b!"r\"\"\"" ++ ((([114] : Bytes) ++ ([39, 39, 39] ++ B ++ [39, 39, 39])).drop 4).take
              ((([114] : Bytes) ++ ([39, 39, 39] ++ B ++ [39, 39, 39])).length - 7) ++ b!"\"\"\"" =
              [114] ++ ([34, 34, 34] ++ B ++ [34, 34, 34]) := by
            simp
          rw [e] at hout
          simp only [Option.some.injEq] at hout
          subst hout
          have hQ' : QTok 34 ([34, 34, 34] ++ B ++ [34, 34, 34]) :=
            .triple B hEB (fun r => by have := scanTriple_EB 34 (by decide) hEB hno r false; simpa using this)
          refine ⟨?_, fun rest h1 h2 => scan_prefix (.inl rfl) hQ' true rest h1 h2⟩
          have := unquote_triple 34 (.inl rfl) B true
          rw [decode_raw] at this
          exact this
      · simp only [Option.some.injEq] at hout
        exact hout ▸ hself
    · split at hout
      · split at hout
        · simp at hout
        · simp only [Option.some.injEq] at hout
          exact hout ▸ hself
        · simp only [Option.some.injEq] at hout
          exact hout ▸ quote_good value triple
      · simp only [Option.some.injEq] at hout
        exact hout ▸ quote_good value triple
  · simp only [Option.some.injEq] at hout
    exact hout ▸ quote_good value triple

-- hypotheses are met by a raw single-quoted token, which is printed with double quotes
example : LexedToken b!"r'a\\'b'" ∧ printString b!"r'a\\'b'" b!"a\\'b" false = some b!"r\"a\\'b\"" :=
  ⟨⟨b!"r'a\\'b')", b!")", by decide⟩, by decide⟩

/-- C03, crash: printing a token with a backslash before a character outside Latin-1 panics. -/
theorem C03_panic_witness : LexedToken b!"\"\\中\"" ∧
    (unquote b!"\"\\中\"").err = false ∧
    printString b!"\"\\中\"" (unquote b!"\"\\中\"").s false = none :=
  ⟨⟨b!"\"\\中\"", [], by decide⟩, by decide, by decide⟩

/-- Where a backslash escape is followed by a byte that does not start a character below U+0100. -/
inductive EscapesNonLatin1 : Bytes → Prop
  | here (d : UInt8) (l : Bytes) : 0x80 ≤ d →
      ¬ ((d = 0xC2 ∨ d = 0xC3) ∧ ∃ e l', l = e :: l' ∧ 0x80 ≤ e ∧ e ≤ 0xBF) → EscapesNonLatin1 (92 :: d :: l)
  | plain (c : UInt8) (l : Bytes) : c ≠ 92 → EscapesNonLatin1 l → EscapesNonLatin1 (c :: l)
  | skip (d : UInt8) (l : Bytes) : escapable d = true → EscapesNonLatin1 l → EscapesNonLatin1 (92 :: d :: l)

theorem escapable_lt : ∀ d : UInt8, escapable d = true → d < 0x80 := by
  apply forall_byte; decide +kernel

theorem isCorrectEscaping_none_iff (l : Bytes) : isCorrectEscaping l = none ↔ EscapesNonLatin1 l := by
  fun_induction isCorrectEscaping l with
  | case1 => exact ⟨fun h => by simp at h, fun h => by cases h⟩
  | case2 c rest hc ih =>
    have hc' : c ≠ 92 := by simpa using hc
    refine ⟨fun h => .plain c rest hc' (ih.1 h), fun h => ?_⟩
    cases h with
    | here d l => exact absurd rfl hc'
    | plain _ _ _ h => exact ih.2 h
    | skip d l => exact absurd rfl hc'
  | case3 c hc =>
    refine ⟨fun h => by simp at h, fun h => ?_⟩
    cases h with
    | plain _ _ _ h => cases h
  | case4 c hc d rest' hd he ih =>
    have hc' : c = 92 := by simpa using hc
    subst hc'
    refine ⟨fun h => .skip d rest' he (ih.1 h), fun h => ?_⟩
    cases h with
    | here _ _ h1 _ => exact absurd hd (by simpa using h1)
    | plain _ _ h _ => exact absurd rfl h
    | skip _ _ _ h => exact ih.2 h
  | case5 c hc d rest' hd he =>
    have hc' : c = 92 := by simpa using hc
    subst hc'
    refine ⟨fun h => by simp at h, fun h => ?_⟩
    cases h with
    | here _ _ h1 _ => exact absurd hd (by simpa using h1)
    | plain _ _ h _ => exact absurd rfl h
    | skip _ _ h _ => exact absurd h (by simpa using he)
  | case6 c hc d rest' hd hl =>
    have hc' : c = 92 := by simpa using hc
    subst hc'
    refine ⟨fun h => by simp at h, fun h => ?_⟩
    simp only [Bool.and_eq_true, Bool.or_eq_true, decide_eq_true_eq] at hl
    cases h with
    | here _ _ _ h2 =>
      refine absurd ?_ h2
      refine ⟨hl.1, ?_⟩
      cases rest' with
      | nil => simp at hl
      | cons e l' => exact ⟨e, l', rfl, by simpa using hl.2⟩
    | plain _ _ h _ => exact absurd rfl h
    | skip _ _ h _ => exact absurd (escapable_lt d h) hd
  | case7 c hc d rest' hd hl =>
    have hc' : c = 92 := by simpa using hc
    subst hc'
    refine ⟨fun _ => .here d rest' (by simpa using hd) ?_, fun _ => rfl⟩
    rintro ⟨h1, e, l', rfl, h2, h3⟩
    exact hl (by simp [h1, h2, h3])

/-- C03: printing crashes exactly for an unedited non-raw literal, kept in its source form, with a backslash
before a character outside Latin-1 (or an invalid byte). -/
theorem C03_print_string_crash_iff (tok value : Bytes) (triple : Bool) (htok : tok = [] ∨ LexedToken tok) :
    printString tok value triple = none ↔
      (unquote tok = { s := value, triple := triple, err := false } ∧ tok.head? ≠ some c!"r" ∧
       (tok.head? = some c!"\"" ∨ c!"\"" ∈ value) ∧ EscapesNonLatin1 tok) := by
  rw [← isCorrectEscaping_none_iff]
  have hrawlen : ∀ {tok}, LexedToken tok → tok.head? = some 114 → 3 ≤ tok.length ∧
      (hasSuffix tok b!"'''" = true → 7 ≤ tok.length) := by
    intro tok h hr
    obtain ⟨q, raw, t, hq, hQ, rfl⟩ := lexed_shape h
    have hraw : raw = true := by
      cases raw with
      | true => rfl
      | false => cases hQ <;> rcases hq with rfl | rfl <;> simp at hr
    subst hraw
    have hq92 : q ≠ 92 := by rcases hq with rfl | rfl <;> decide
    have hq114 : q ≠ 114 := by rcases hq with rfl | rfl <;> decide
    cases hQ with
    | triple B _ _ => refine ⟨by simp, fun _ => by simp⟩
    | single B hSB =>
      refine ⟨by simp, fun hc => ?_⟩
      simp only [hasSuffix, List.isSuffixOf_iff_suffix] at hc
      obtain ⟨X, hX⟩ := hc
      have hq39 : q = 39 := by
        have := congrArg List.getLast? hX
        simp [List.getLast?_append, List.getLast?_cons] at this
        exact this.symm
      subst hq39
      exact absurd hX.symm (by have := hSB.not_suffix (by decide) (by decide) X; simpa using this)
  unfold printString
  simp only
  split
  · rename_i hu
    obtain ⟨hu1, hu2, hu3⟩ := hu
    have hunq : unquote tok = ⟨value, triple, false⟩ := by rw [← hu1, ← hu2, ← hu3]
    have htok' : LexedToken tok := by
      rcases htok with rfl | h
      · simp [unquote, unquoteRest] at hu1
      · exact h
    simp only [hunq, true_and]
    split
    · rename_i hr
      obtain ⟨l1, l2⟩ := hrawlen htok' hr
      refine ⟨fun h => ?_, fun h => absurd hr h.1⟩
      exfalso
      split at h
      · split at h
        · rename_i h7
          split at h
          · have := l2 h7; omega
          · simp at h
        · split at h
          · omega
          · simp at h
      · simp at h
    · rename_i hr
      split
      · rename_i hd
        have hd' : tok.head? = some c!"\"" ∨ c!"\"" ∈ value := by simpa using hd
        split <;> simp_all
      · rename_i hd
        have hd' : ¬ (tok.head? = some c!"\"" ∨ c!"\"" ∈ value) := by simpa using hd
        simp [hd']
  · rename_i hu
    constructor
    · intro h; simp at h
    · rintro ⟨h, _⟩; exact absurd (by simp [h]) hu

end Verif.Props.Quote
