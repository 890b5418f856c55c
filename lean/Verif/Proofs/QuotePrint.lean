import Verif.Proofs.Quote
/- Helper lemmas for C01-C03: shape of scanned tokens, decoding of re-quoted tokens. -/
namespace Verif.Quote
open Verif Verif.Scan

/-- what `unquote` returns for a well-delimited literal with the given body -/
def decode (raw : Bool) (body : Bytes) (triple : Bool) : Unquoted :=
  if raw || !body.contains 92 then ⟨body, triple, false⟩
  else match unescape (body.length + 1) body with
    | none => ⟨[], triple, true⟩
    | some s => ⟨s, triple, false⟩

theorem unquote_prefix (q : UInt8) (hq : q = 34 ∨ q = 39) (l : Bytes) (raw : Bool) :
    unquote ((if raw then [114] else []) ++ (q :: l)) = unquoteRest raw (q :: l) := by
  cases raw <;> rcases hq with rfl | rfl <;> simp [unquote]

theorem unquoteRest_eq (raw tr : Bool) (quoted body : Bytes) (h1 : 2 ≤ quoted.length)
    (h2 : isTripleLit quoted = tr) (h3 : badQuotes quoted = false)
    (h4 : (if tr then (quoted.drop 3).take (quoted.length - 6) else (quoted.drop 1).take (quoted.length - 2)) = body) :
    unquoteRest raw quoted = decode raw body tr := by
  unfold unquoteRest decode
  rw [if_neg (by omega)]
  simp only [h2, h3, h4]
  rfl

theorem unquote_triple (q : UInt8) (hq : q = 34 ∨ q = 39) (B : Bytes) (raw : Bool) :
    unquote ((if raw then [114] else []) ++ ([q, q, q] ++ B ++ [q, q, q])) = decode raw B true := by
  have h3 : ([q, q, q] ++ B ++ [q, q, q]).length = B.length + 6 := by simp
  have h4 : ([q, q, q] ++ B ++ [q, q, q]).drop (B.length + 6 - 3) = [q, q, q] := by
    have : B.length + 6 - 3 = ([q, q, q] ++ B).length := by simp
    rw [this, List.drop_left]
  have h6 : ([q, q, q] ++ B ++ [q, q, q]).getLast? = some q := by rw [List.getLast?_append]; simp
  have hp := unquote_prefix q hq (q :: q :: (B ++ [q, q, q])) raw
  have e : q :: q :: q :: (B ++ [q, q, q]) = [q, q, q] ++ B ++ [q, q, q] := by simp
  rw [e] at hp
  rw [hp]
  apply unquoteRest_eq
  · omega
  · unfold isTripleLit
    rw [h3, h4]
    simp
  · unfold badQuotes
    rw [h6]
    rcases hq with rfl | rfl <;> simp
  · simp

theorem unquote_single (q : UInt8) (hq : q = 34 ∨ q = 39) (B : Bytes) (raw : Bool)
    (hB : B.head? ≠ some q) :
    unquote ((if raw then [114] else []) ++ ([q] ++ B ++ [q])) = decode raw B false := by
  have h6 : ([q] ++ B ++ [q]).getLast? = some q := by rw [List.getLast?_append]; simp
  have hp := unquote_prefix q hq (B ++ [q]) raw
  have e : q :: (B ++ [q]) = [q] ++ B ++ [q] := by simp
  rw [e] at hp
  rw [hp]
  apply unquoteRest_eq
  · simp
  · unfold isTripleLit
    cases B with
    | nil => simp
    | cons b B =>
      have : b ≠ q := by simpa using hB
      simp [this]
  · unfold badQuotes
    rw [h6]
    rcases hq with rfl | rfl <;> simp
  · simp

/-- text in which every backslash is followed by a byte -/
inductive EB : Bytes → Prop
  | nil : EB []
  | plain (c : UInt8) (B : Bytes) : c ≠ 92 → EB B → EB (c :: B)
  | esc (d : UInt8) (B : Bytes) : EB B → EB (92 :: d :: B)

/-- body of a one-line literal with quote `q` -/
inductive SB (q : UInt8) : Bytes → Prop
  | nil : SB q []
  | plain (c : UInt8) (B : Bytes) : c ≠ 10 → c ≠ q → c ≠ 92 → SB q B → SB q (c :: B)
  | esc (d : UInt8) (B : Bytes) : SB q B → SB q (92 :: d :: B)

theorem pre_eq_some {a : Bytes} {x : Option (Bytes × Bytes)} {t r : Bytes} (h : pre a x = some (t, r)) :
    ∃ t', x = some (t', r) ∧ t = a ++ t' := by
  unfold pre at h
  cases x with
  | none => simp at h
  | some p => obtain ⟨t', r'⟩ := p; simp at h; exact ⟨t', by simp [h.2], h.1.symm⟩

theorem scanSingle_shape (q : UInt8) (_hq10 : q ≠ 10) (_hq92 : q ≠ 92) (inp : Bytes) :
    ∀ t r, scanSingle q inp = some (t, r) → inp = t ++ r ∧ ∃ B, t = B ++ [q] ∧ SB q B := by
  fun_induction scanSingle q inp with
  | case1 => intro t r h; simp at h
  | case2 => intro t r h; simp at h
  | case3 rest h => intro t r h; simp at h; obtain ⟨rfl, rfl⟩ := h; exact ⟨rfl, [], rfl, .nil⟩
  | case4 => intro t r h; simp at h
  | case5 d rest' _ _ ih =>
    intro t r h
    obtain ⟨t', h1, rfl⟩ := pre_eq_some (a := [92, d]) h
    obtain ⟨h2, B, rfl, hB⟩ := ih _ _ h1
    exact ⟨by simp [h2], 92 :: d :: B, rfl, .esc d B hB⟩
  | case6 c rest h1 h2 h3 ih =>
    intro t r h
    obtain ⟨t', h4, rfl⟩ := pre_eq_some (a := [c]) h
    obtain ⟨h5, B, rfl, hB⟩ := ih _ _ h4
    exact ⟨by simp [h5], c :: B, rfl, .plain c B h1 h2 h3 hB⟩

theorem scanSingle_SB (q : UInt8) (hq10 : q ≠ 10) (hq92 : q ≠ 92) {B : Bytes} (hB : SB q B) (r : Bytes) :
    scanSingle q (B ++ q :: r) = some (B ++ [q], r) := by
  induction hB with
  | nil => exact scanSingle_close _ _ hq10
  | plain c B h1 h2 h3 _ ih => rw [List.cons_append, scanSingle_plain _ _ _ h1 h2 h3, ih]; rfl
  | esc d B _ ih => rw [List.cons_append, List.cons_append, scanSingle_esc _ _ _ (Ne.symm hq92), ih]; rfl

theorem SB.swap {q q' : UInt8} {B : Bytes} (h : SB q B) (hq : q' ∉ B) : SB q' B := by
  induction h with
  | nil => exact .nil
  | plain c B h1 h2 h3 _ ih =>
    simp at hq
    exact .plain c B h1 (Ne.symm hq.1) h3 (ih hq.2)
  | esc d B _ ih => simp at hq; exact .esc d B (ih hq.2.2)

theorem SB.head {q : UInt8} {B : Bytes} (h : SB q B) (hq : q ≠ 92) : B.head? ≠ some q := by
  cases h with
  | nil => simp
  | plain c B h1 h2 => simpa using h2
  | esc d B => simpa using Ne.symm hq

theorem SB.not_suffix {q : UInt8} {B : Bytes} (h : SB q B) (hq : q ≠ 92) (hq' : q ≠ 114) :
    ∀ X, [114, q] ++ B ++ [q] ≠ X ++ [q, q, q] := by
  -- it suffices that B does not end in two quotes and is not a single quote
  have key : ∀ Y, B ≠ Y ++ [q, q] := by
    induction h with
    | nil => intro Y; simp
    | plain c B h1 h2 h3 hB ih =>
      intro Y
      cases Y with
      | nil => intro e; simp at e; exact h2 e.1
      | cons y Y => intro e; simp at e; exact ih Y e.2
    | esc d B hB ih =>
      intro Y
      match Y with
      | [] => intro e; simp at e; exact hq e.1.symm
      | [y] =>
        intro e; simp at e
        have := hB.head hq
        rw [e.2.2] at this; simp at this
      | y :: y' :: Y => intro e; simp at e; exact ih Y e.2.2
  intro X e
  have e1 : ([114, q] ++ B) = X ++ [q, q] := by
    have : X ++ [q, q, q] = (X ++ [q, q]) ++ [q] := by simp
    rw [this] at e
    exact List.append_inj_left' e rfl
  match X with
  | [] => simp at e1; exact hq' e1.1.symm
  | [x] =>
    simp at e1
    have := h.head hq
    rw [e1.2] at this; simp at this
  | x :: x' :: X =>
    simp at e1
    exact key X e1.2.2

/-- length of the run of quotes remembered by the scanner -/
def run (c1 c2 : Bool) : Nat := if c2 then (if c1 then 2 else 1) else 0

theorem scanTriple_shape (q : UInt8) (hq92 : q ≠ 92) (c1 c2 : Bool) (inp : Bytes) :
    ∀ t r, scanTriple q c1 c2 inp = some (t, r) → inp = t ++ r ∧
      ∃ B k, EB B ∧ t = B ++ List.replicate k q ∧ (k = 3 ∨ (B = [] ∧ k = 3 - run c1 c2)) := by
  fun_induction scanTriple q c1 c2 inp with
  | case1 => intro t r h; simp at h
  | case2 c1 c2 c rest h =>
    intro t r h'; simp at h'; obtain ⟨rfl, rfl⟩ := h'
    simp only [Bool.and_eq_true, decide_eq_true_eq] at h
    obtain ⟨⟨rfl, rfl⟩, rfl⟩ := h
    exact ⟨rfl, [], 1, .nil, rfl, .inr ⟨rfl, by simp [run]⟩⟩
  | case3 => intro t r h; simp at h
  | case4 c1 c2 d rest' _ ih =>
    intro t r h
    obtain ⟨t', h1, rfl⟩ := pre_eq_some (a := [92, d]) h
    obtain ⟨h2, B, k, hB, rfl, hk⟩ := ih _ _ h1
    refine ⟨by simp [h2], 92 :: d :: B, k, .esc d B hB, rfl, .inl ?_⟩
    rcases hk with hk | hk
    · exact hk
    · simp [run] at hk; exact hk.2
  | case5 c1 c2 c rest h1 h2 ih =>
    intro t r h
    obtain ⟨t', h3, rfl⟩ := pre_eq_some (a := [c]) h
    obtain ⟨h4, B, k, hB, rfl, hk⟩ := ih _ _ h3
    refine ⟨by simp [h4], ?_⟩
    by_cases hc : c = q
    · subst hc
      simp at h1
      rcases hk with hk | ⟨rfl, hk⟩
      · exact ⟨c :: B, k, .plain c B h2 hB, rfl, .inl hk⟩
      · refine ⟨[], k + 1, .nil, by simp [List.replicate_succ], ?_⟩
        cases c1 <;> cases c2 <;> simp [run] at hk h1 ⊢ <;> omega
    · refine ⟨c :: B, k, .plain c B h2 hB, rfl, .inl ?_⟩
      rcases hk with hk | hk
      · exact hk
      · simp [run, hc] at hk; exact hk.2

theorem scanTriple_EB (q : UInt8) (hq92 : q ≠ 92) {B : Bytes} (hB : EB B) (hq : q ∉ B) (r : Bytes) :
    ∀ c1, scanTriple q c1 false (B ++ q :: q :: q :: r) = some (B ++ [q, q, q], r) := by
  induction hB with
  | nil =>
    intro c1
    show scanTriple q c1 false (q :: q :: q :: r) = _
    rw [scanTriple_plain _ _ _ _ _ (by simp) hq92, scanTriple_plain _ _ _ _ _ (by simp) hq92]
    simp [scanTriple_close, pre]
  | plain c B h1 _ ih =>
    intro c1
    simp at hq
    have hcq : c ≠ q := Ne.symm hq.1
    rw [List.cons_append, scanTriple_plain _ _ _ _ _ (by simp) h1]
    simp [hcq, ih hq.2, pre]
  | esc d B _ ih =>
    intro c1
    simp at hq
    rw [List.cons_append, List.cons_append, scanTriple_esc _ _ _ _ _ (Ne.symm hq92), ih hq.2.2]; rfl

/-- changing what follows a scanned triple-quoted literal does not change the token -/
theorem scanTriple_rest (q : UInt8) (c1 c2 : Bool) (inp : Bytes) :
    ∀ t r, scanTriple q c1 c2 inp = some (t, r) → ∀ r', scanTriple q c1 c2 (t ++ r') = some (t, r') := by
  fun_induction scanTriple q c1 c2 inp with
  | case1 => intro t r h; simp at h
  | case2 c1 c2 c rest h =>
    intro t r h' r'; simp at h'; obtain ⟨rfl, rfl⟩ := h'
    simp only [Bool.and_eq_true, decide_eq_true_eq] at h
    obtain ⟨⟨rfl, rfl⟩, rfl⟩ := h
    exact scanTriple_close _ _
  | case3 => intro t r h; simp at h
  | case4 c1 c2 d rest' h1 ih =>
    intro t r h r'
    obtain ⟨t', h1', rfl⟩ := pre_eq_some (a := [92, d]) h
    have := ih _ _ h1' r'
    rw [show [92, d] ++ t' ++ r' = 92 :: d :: (t' ++ r') from rfl, scanTriple.eq_def]
    simp only [h1, this]; simp
  | case5 c1 c2 c rest h1 h2 ih =>
    intro t r h r'
    obtain ⟨t', h3, rfl⟩ := pre_eq_some (a := [c]) h
    have := ih _ _ h3 r'
    rw [show [c] ++ t' ++ r' = c :: (t' ++ r') from rfl, scanTriple_plain _ _ _ _ _ (by simpa using h1) h2, this]; rfl

/-- shape of a quoted token (without raw prefix) -/
inductive QTok (q : UInt8) : Bytes → Prop
  | single (B : Bytes) : SB q B → QTok q ([q] ++ B ++ [q])
  | triple (B : Bytes) : EB B → (∀ r, scanTriple q false false (B ++ [q, q, q] ++ r) = some (B ++ [q, q, q], r)) →
      QTok q ([q, q, q] ++ B ++ [q, q, q])

theorem scanQuoted_shape (inp t r : Bytes) (h : scanQuoted inp = some (t, r)) :
    inp = t ++ r ∧ ∃ q, (q = 34 ∨ q = 39) ∧ QTok q t := by
  unfold scanQuoted at h
  split at h
  · simp at h
  · rename_i q rest
    split at h
    · simp at h
    · rename_i hq
      have hq' : q = 34 ∨ q = 39 := by
        simp only [ne_eq, decide_not, Bool.and_eq_true, Bool.not_eq_true', decide_eq_false_iff_not] at hq
        by_cases h1 : q = 34
        · exact .inl h1
        · exact .inr (Classical.byContradiction fun h2 => hq ⟨h1, h2⟩)
      have hq10 : q ≠ 10 := by rcases hq' with rfl | rfl <;> decide
      have hq92 : q ≠ 92 := by rcases hq' with rfl | rfl <;> decide
      have hs : ∀ rest, Option.map (fun x : Bytes × Bytes => (q :: x.1, x.2)) (scanSingle q rest) = some (t, r) →
          q :: rest = t ++ r ∧ ∃ q, (q = 34 ∨ q = 39) ∧ QTok q t := by
        intro rest h
        obtain ⟨t', h1, rfl⟩ := pre_eq_some (a := [q]) h
        obtain ⟨h2, B, rfl, hB⟩ := scanSingle_shape q hq10 hq92 _ _ _ h1
        refine ⟨by simp [h2], q, hq', ?_⟩
        have := QTok.single (q := q) B hB
        simpa using this
      split at h
      · rename_i a b rest'
        split at h
        · rename_i hab
          simp only [Bool.and_eq_true, decide_eq_true_eq] at hab
          obtain ⟨rfl, rfl⟩ := hab
          obtain ⟨t', h1, rfl⟩ := pre_eq_some (a := [_, _, _]) h
          obtain ⟨h2, B, k, hB, hk, hk'⟩ := scanTriple_shape _ hq92 _ _ _ _ _ h1
          have hk3 : k = 3 := by simp [run] at hk'; rcases hk' with h | ⟨_, h⟩ <;> exact h
          subst hk3
          have hr := scanTriple_rest _ _ _ _ _ _ h1
          subst hk
          refine ⟨by simp [h2], _, hq', ?_⟩
          have := QTok.triple B hB hr
          simpa using this
        · exact hs _ h
      · exact hs _ h

theorem QTok.unquote {q : UInt8} (hq : q = 34 ∨ q = 39) {t : Bytes} (h : QTok q t) (raw : Bool) :
    ∃ B tr, (t = [q] ++ B ++ [q] ∧ tr = false ∧ SB q B ∨
      t = [q, q, q] ++ B ++ [q, q, q] ∧ tr = true ∧ EB B) ∧
      Quote.unquote ((if raw then [114] else []) ++ t) = decode raw B tr := by
  have hq92 : q ≠ 92 := by rcases hq with rfl | rfl <;> decide
  cases h with
  | single B hB => exact ⟨B, false, .inl ⟨rfl, rfl, hB⟩, unquote_single q hq B raw (hB.head hq92)⟩
  | triple B hB _ => exact ⟨B, true, .inr ⟨rfl, rfl, hB⟩, unquote_triple q hq B raw⟩

/-- a quoted token is scanned back, whatever follows (an empty one-line literal must not be followed by
a further quote) -/
theorem QTok.rescan {q : UInt8} (hq : q = 34 ∨ q = 39) {t : Bytes} (h : QTok q t) (r : Bytes)
    (hr : r.head? ≠ some q) : scanQuoted (t ++ r) = some (t, r) := by
  have hq10 : q ≠ 10 := by rcases hq with rfl | rfl <;> decide
  have hq92 : q ≠ 92 := by rcases hq with rfl | rfl <;> decide
  have hqq : (q ≠ 34 && q ≠ 39) = false := by rcases hq with rfl | rfl <;> decide
  cases h with
  | single B hB =>
    have hs := scanSingle_SB q hq10 hq92 hB r
    show scanQuoted (q :: (B ++ [q] ++ r)) = _
    have e : B ++ [q] ++ r = B ++ q :: r := by simp
    rw [e]
    unfold scanQuoted
    simp only [hqq]
    cases B with
    | nil =>
      simp at hs ⊢
      cases r with
      | nil => simp [hs]
      | cons x r =>
        have : x ≠ q := by simpa using hr
        simp [this, hs]
    | cons b B =>
      have hb : b ≠ q := by simpa using hB.head hq92
      have hs' : scanSingle q (b :: (B ++ q :: r)) = some (b :: (B ++ [q]), r) := hs
      cases hB' : B ++ q :: r with
      | nil => simp at hB'
      | cons x l =>
        rw [hB'] at hs'
        simp [hB', hb, hs']
  | triple B hB hsc =>
    show scanQuoted (q :: q :: q :: (B ++ [q, q, q] ++ r)) = _
    unfold scanQuoted
    simp only [hqq]
    simp only [hsc r]
    simp

theorem quote_QTok (s : Bytes) (t : Bool) : QTok 34 (quote s t) := by
  cases t with
  | false =>
    have h := scanSingle_quoteBody s []
    obtain ⟨_, B, hB, hSB⟩ := scanSingle_shape 34 (by decide) (by decide) _ _ _ h
    have : B = quoteBody false s := (List.append_inj_left' hB rfl).symm
    subst this
    exact .single _ hSB
  | true =>
    have hs := fun r => scanTriple_quoteBody s r true rfl false false (by simp)
    obtain ⟨_, B, k, hB, hk, hk'⟩ := scanTriple_shape 34 (by decide) _ _ _ _ _ (hs [])
    have hk3 : k = 3 := by simp [run] at hk'; rcases hk' with h | ⟨_, h⟩ <;> exact h
    subst hk3
    have : B = quoteBody true s := (List.append_inj_left' hk rfl).symm
    subst this
    exact .triple _ hB (fun r => by simpa using hs r)

theorem not_contains_unescape (l : Bytes) (h : l.contains 92 = false) :
    ∀ n, l.length < n → unescape n l = some l := by
  induction l with
  | nil => intro n hn; cases n with
    | zero => simp at hn
    | succ n => simp [unescape]
  | cons c l ih =>
    intro n hn
    simp at h
    cases n with
    | zero => simp at hn
    | succ n =>
      rw [unescape_plain _ _ _ (Ne.symm h.1), ih (by simpa using h.2) n (by simpa using hn)]; rfl

theorem decode_quoteBody (s : Bytes) (t : Bool) : decode false (quoteBody t s) t = ⟨s, t, false⟩ := by
  unfold decode
  have h := unescape_quoteBody t s ((quoteBody t s).length + 1) (by omega)
  simp only [Bool.false_or, Bool.not_eq_true', h]
  split
  · rename_i hc
    have := not_contains_unescape _ hc ((quoteBody t s).length + 1) (by omega)
    rw [h] at this
    simp at this
    rw [← this]
  · rfl

end Verif.Quote
