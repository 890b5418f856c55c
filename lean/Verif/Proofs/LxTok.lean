import Verif.Proofs.Lx
/-
The tokens the printer writes.
-/
namespace Verif.Round
open Verif Verif.Syntax Verif.Lexer Verif.Props.Lexer

theorem follow_word {c : UInt8} (h : Follow c) : isIdent c = false := by
  revert c; unfold Follow; decide

theorem follow_sign {c : UInt8} (h : Follow c) : (c == c!"+" || c == c!"-") = false := by
  revert c; unfold Follow; decide

theorem follow_quote {c : UInt8} (h : Follow c) : c ≠ 34 ∧ c ≠ 39 := by
  revert c; unfold Follow; decide

theorem word_scan {c : UInt8} (h : wordByte c) : isOpen c = false ∧ isClose c = false ∧ isSingle c = false ∧ isOpByte c = false ∧ isQuoteByte c = false := by
  have key : ∀ l : Bytes, (∀ b ∈ l, isIdent b = false) → l.contains c = false := by
    intro l hl
    cases hc : l.contains c with
    | false => rfl
    | true =>
      have : c ∈ l := by simpa using hc
      have := hl c this
      rw [(isIdent_iff c).2 h] at this; cases this
  refine ⟨key _ (by decide), key _ (by decide), key _ (by decide), key _ (by decide), ?_⟩
  have := key [34, 39] (by decide)
  unfold isQuoteByte
  simpa using this

theorem scanIdent_word (d : Bool) (c : UInt8) (hc : isIdent c = false) (hs : (c == c!"+" || c == c!"-") = false) (r : Bytes) :
    ∀ (s : Bytes) (l : UInt8), (∀ b ∈ s, wordByte b) → scanIdent d l (s ++ c :: r) = (s, c :: r) := by
  intro s
  induction s with
  | nil =>
    intro l _
    show scanIdent d l (c :: r) = _
    unfold scanIdent
    rw [hc, hs]; rfl
  | cons a s ih =>
    intro l h
    show scanIdent d l (a :: (s ++ c :: r)) = _
    unfold scanIdent
    rw [(isIdent_iff a).2 (h a (by simp)), ih a (fun b hb => h b (by simp [hb]))]
    rfl

theorem scanIdent_digits (c : UInt8) (hc : isIdent c = false) (hs : (c == c!"+" || c == c!"-") = false) (r : Bytes) :
    ∀ (s : Bytes) (l : UInt8), Digits l s → scanIdent true l (s ++ c :: r) = (s, c :: r) := by
  intro s
  induction s with
  | nil =>
    intro l _
    show scanIdent true l (c :: r) = _
    unfold scanIdent
    rw [hc, hs]; rfl
  | cons a s ih =>
    intro l h
    show scanIdent true l (a :: (s ++ c :: r)) = _
    unfold scanIdent
    cases h with
    | word _ _ _ h1 h2 =>
      rw [(isIdent_iff a).2 h1, ih a h2]; rfl
    | sign _ _ _ h1 h2 h3 =>
      rw [ih a h3]
      have : (isIdent a || ((a == c!"+" || a == c!"-") && true && (l == c!"e" || l == c!"E"))) = true := by
        rcases h1 with rfl | rfl <;> rcases h2 with rfl | rfl <;> rfl
      rw [this]; rfl

/-- the word branch of the scanner -/
theorem scanTok_word {c : UInt8} {r t r' : Bytes} (hc : wordByte c) (hq : c = 114 → r.head? ≠ some 34 ∧ r.head? ≠ some 39)
    (h : scanIdent (isDigit c) c r = (t, r')) : scanTok c r = some { kind := identKind (c :: t), text := c :: t, rest := r' } := by
  obtain ⟨h1, h2, h3, h4, h5⟩ := word_scan hc
  unfold scanTok
  rw [h1, h2, h3, h4, h5, h]
  simp only [Bool.or_self, Bool.false_eq_true, if_false, Bool.false_or]
  rw [if_neg, if_pos ((isIdent_iff c).2 hc)]
  intro hb
  simp only [Bool.and_eq_true, Bool.or_eq_true, beq_iff_eq] at hb
  obtain ⟨a, b⟩ := hb
  obtain ⟨q1, q2⟩ := hq a
  rcases b with b | b
  · exact q1 b
  · exact q2 b

theorem word_head {s : Bytes} {c : UInt8} {r : Bytes} (hs : ∀ b ∈ s, wordByte b) (hc : Follow c) :
    (s ++ c :: r).head? ≠ some 34 ∧ (s ++ c :: r).head? ≠ some 39 := by
  cases s with
  | nil =>
    obtain ⟨h1, h2⟩ := follow_quote hc
    simp only [List.nil_append, List.head?_cons]
    exact ⟨fun h => h1 (Option.some.inj h), fun h => h2 (Option.some.inj h)⟩
  | cons a s =>
    have := hs a (by simp)
    simp only [List.cons_append, List.head?_cons]
    constructor <;> (intro h; rw [Option.some.inj h] at this; revert this; unfold wordByte; decide)

theorem identKind_name {t : Bytes} {c : UInt8} {s : Bytes} (h : t = c :: s) (hd : ¬ (48 ≤ c ∧ c ≤ 57)) (hk : t ∉ keywords) : identKind t = K.ident := by
  have e : ∀ k ∈ keywords, t ≠ k := fun k hk' he => hk (he ▸ hk')
  unfold identKind
  rw [if_neg (e _ (by decide)), if_neg (e _ (by decide)), if_neg (e _ (by decide)), if_neg (e _ (by decide)), if_neg (e _ (by decide)),
    if_neg (e _ (by decide)), if_neg (e _ (by decide)), if_neg (e _ (by decide)), if_neg (e _ (by decide)), if_neg (e _ (by decide)),
    if_neg (e _ (by decide)), if_neg (e _ (by decide)), if_neg (e _ (by decide)), if_neg (e _ (by decide)), if_neg (e _ (by decide)),
    if_neg (e _ (by decide)), h]
  simp only
  rw [if_neg]
  intro h
  exact hd ((isDigit_iff c).1 h)

theorem identKind_int {c : UInt8} {s : Bytes} (hd : 48 ≤ c ∧ c ≤ 57) : identKind (c :: s) = K.int := by
  have e : ∀ k ∈ keywords, c :: s ≠ k := by
    intro k hk he
    have key : keywords.all (fun k => match k with | [] => true | a :: _ => !(decide (48 ≤ a ∧ a ≤ 57))) = true := by decide
    have := List.all_eq_true.1 key k hk
    rw [← he] at this
    simp only [decide_eq_true hd] at this
    cases this
  unfold identKind
  rw [if_neg (e _ (by decide)), if_neg (e _ (by decide)), if_neg (e _ (by decide)), if_neg (e _ (by decide)), if_neg (e _ (by decide)),
    if_neg (e _ (by decide)), if_neg (e _ (by decide)), if_neg (e _ (by decide)), if_neg (e _ (by decide)), if_neg (e _ (by decide)),
    if_neg (e _ (by decide)), if_neg (e _ (by decide)), if_neg (e _ (by decide)), if_neg (e _ (by decide)), if_neg (e _ (by decide)),
    if_neg (e _ (by decide))]
  simp only
  rw [if_pos ((isDigit_iff c).2 hd)]

/-- an identifier -/
theorem tok_name {t : Bytes} (h : Name t) {c : UInt8} (hc : Follow c) : TextTok t c (W K.ident t) := by
  obtain ⟨x, s, e, hx, hd, hs, hk⟩ := h
  refine ⟨rfl, x, s, e, fun r => ?_⟩
  rw [scanTok_word hx (fun _ => word_head hs hc) (scanIdent_word _ _ (follow_word hc) (follow_sign hc) r s x hs)]
  rw [← e, identKind_name e hd hk]
  rfl

/-- an integer -/
theorem tok_int {t : Bytes} (h : IntText t) {c : UInt8} (hc : Follow c) : TextTok t c (W K.int t) := by
  obtain ⟨x, s, e, hx, hs⟩ := h
  refine ⟨rfl, x, s, e, fun r => ?_⟩
  have hdx := (isDigit_iff x).2 hx
  have hsc : scanIdent (isDigit x) x (s ++ c :: r) = (s, c :: r) := by rw [hdx]; exact scanIdent_digits _ (follow_word hc) (follow_sign hc) r s x hs
  rw [scanTok_word (.inl hx) (fun h => by rw [h] at hx; exact absurd hx (by decide)) hsc]
  rw [e, identKind_int hx]
  rfl

/-- a reserved word -/
theorem tok_kw {t : Bytes} {k : Kind} (h1 : ∃ x s, t = x :: s ∧ isIdent x = true ∧ s.all isIdent = true) (hk : identKind t = k) {c : UInt8} (hc : Follow c) :
    TextTok t c (W k t) := by
  obtain ⟨x, s, e, hx, hs⟩ := h1
  have hs' : ∀ b ∈ s, wordByte b := fun b hb => (isIdent_iff b).1 (List.all_eq_true.1 hs b hb)
  refine ⟨rfl, x, s, e, fun r => ?_⟩
  rw [scanTok_word ((isIdent_iff x).1 hx) (fun _ => word_head hs' hc) (scanIdent_word _ _ (follow_word hc) (follow_sign hc) r s x hs')]
  rw [← e, hk]
  rfl

/-- `:` `,` `.` `;` -/
theorem tok_single {x : UInt8} (h : isSingle x = true) (c : UInt8) : TextTok [x] c (W x.toNat [x]) := by
  refine ⟨rfl, x, [], rfl, fun r => ?_⟩
  unfold scanTok
  rw [h]
  simp only [Bool.or_true, if_true]
  rfl

/-- string literals -/
theorem tok_string {t v : Bytes} {tr : Bool} (h : Props.Quote.GoodLiteral t v tr) {c : UInt8} (hc : Follow c) : TextTok t c ⟨K.string, t, v, tr⟩ := by
  obtain ⟨h1, h2⟩ := h
  obtain ⟨q1, q2⟩ := follow_quote hc
  have hscan : ∀ r, Scan.scanString (t ++ c :: r) = some (t, c :: r) := fun r =>
    h2 (c :: r) (fun h => q1 (Option.some.inj h)) (fun h => q2 (Option.some.inj h))
  cases t with
  | nil =>
    exfalso
    have e : Quote.unquote [] = { s := v, triple := tr, err := false } := h1
    cases e
  | cons x s =>
    refine ⟨rfl, x, s, rfl, fun r => ?_⟩
    have hb : (isQuoteByte x || (x == c!"r" && ((s ++ c :: r).head? == some c!"\"" || (s ++ c :: r).head? == some c!"'"))) = true := by
      have := hscan r
      rw [List.cons_append] at this
      unfold Scan.scanString at this
      split at this
      · cases this
      · rename_i c0 rest heq
        obtain ⟨rfl, rfl⟩ := List.cons.inj heq
        split at this
        · rename_i hr
          subst hr
          cases hq : s ++ c :: r with
          | nil => simp at hq
          | cons a l =>
            rw [hq] at this
            unfold Scan.scanQuoted at this
            split at this
            · cases this
            · rename_i q rest heq2
              obtain ⟨rfl, rfl⟩ := List.cons.inj heq2
              split at this
              · cases this
              · rename_i hne
                simp only [Bool.and_eq_true, decide_eq_true_eq, not_and, Decidable.not_not] at hne
                by_cases h34 : a = 34
                · subst h34; rfl
                · have := hne h34; subst this; rfl
        · unfold Scan.scanQuoted at this
          split at this
          · cases this
          · rename_i q rest heq2
            obtain ⟨rfl, rfl⟩ := List.cons.inj heq2
            split at this
            · cases this
            · rename_i hne
              simp only [Bool.and_eq_true, decide_eq_true_eq, not_and, Decidable.not_not] at hne
              by_cases h34 : x = 34
              · subst h34; rfl
              · have := hne h34; subst this; rfl
    have hno : isOpen x = false ∧ isClose x = false ∧ isSingle x = false ∧ isOpByte x = false := by
      have : x = 34 ∨ x = 39 ∨ x = 114 := by
        unfold isQuoteByte at hb
        simp only [Bool.or_eq_true, beq_iff_eq, Bool.and_eq_true] at hb
        rcases hb with (h | h) | ⟨h, _⟩
        · exact .inl h
        · exact .inr (.inl h)
        · exact .inr (.inr h)
      rcases this with rfl | rfl | rfl <;> decide
    have := hscan r
    unfold scanTok
    rw [hno.1, hno.2.1, hno.2.2.1, hno.2.2.2]
    simp only [Bool.or_self, Bool.false_eq_true, if_false]
    rw [if_pos hb]
    rw [List.cons_append] at this
    rw [this]
    simp only [h1, Bool.false_eq_true, if_false]

/-- operators, followed by a blank or by the start of an operand -/
theorem tok_op {t : Bytes} {k : Kind} {c : UInt8} (h : ∃ x s, t = x :: s ∧ isOpByte x = true ∧ ∀ r, scanOp x (s ++ c :: r) = (k, t, c :: r)) :
    TextTok t c (W k t) := by
  obtain ⟨x, s, e, hx, hs⟩ := h
  refine ⟨rfl, x, s, e, fun r => ?_⟩
  have hno : isOpen x = false ∧ isClose x = false ∧ isSingle x = false := by
    have key : ∀ x ∈ b!"<>=!+-*/%|&~^", isOpen x = false ∧ isClose x = false ∧ isSingle x = false := by decide
    exact key x (by unfold isOpByte at hx; simpa using hx)
  unfold scanTok
  rw [hno.1, hno.2.1, hno.2.2, hx, hs r]
  rfl

end Verif.Round
