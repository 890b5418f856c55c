import Verif.Model.Scan
/- Helper lemmas for quoting (C01, C02, C03). -/
namespace Verif.Quote
open Verif Verif.Scan

/-- classification of the text written for one byte -/
def escClass (t : Bool) (c : UInt8) : Bool :=
  match escByte t c with
  | [d] => d = c && c ≠ 92 && c ≠ 34 && (c ≠ 10 || t) && (0x20 ≤ c || c = 10) && c < 0x80
  | [a, e] => a = 92 && isSimpleEsc e && unesc e = c && e ≠ 10 && 0x20 ≤ e && e < 0x80
  | [a, x, y, z] => a = 92 && isOct x && isOct y && isOct z && !isSimpleEsc x && x ≠ 10 &&
      ((x.toNat - 48) * 8 + (y.toNat - 48)) * 8 + (z.toNat - 48) = c.toNat &&
      (x ≠ 34 && y ≠ 34 && z ≠ 34 && x ≠ 92 && y ≠ 92 && z ≠ 92 && y ≠ 10 && z ≠ 10)
  | _ => false

theorem escClass_all (t : Bool) : ∀ c : UInt8, escClass t c = true := by
  apply forall_byte
  cases t <;> decide +kernel

theorem isOct_lt (x : UInt8) : isOct x = true → 0x20 ≤ x ∧ x < 0x80 := by
  revert x; apply forall_byte; decide +kernel

inductive EscCase (t : Bool) (c : UInt8) : Bytes → Prop
  | plain : c ≠ 92 → c ≠ 34 → (c = 10 → t = true) → (0x20 ≤ c ∨ c = 10) → c < 0x80 → EscCase t c [c]
  | simple (e : UInt8) : isSimpleEsc e = true → unesc e = c → e ≠ 10 → 0x20 ≤ e → e < 0x80 → EscCase t c [92, e]
  | oct (x y z : UInt8) : isOct x = true → isOct y = true → isOct z = true → isSimpleEsc x = false → x ≠ 10 →
      ((x.toNat - 48) * 8 + (y.toNat - 48)) * 8 + (z.toNat - 48) = c.toNat →
      (x ≠ 34 ∧ y ≠ 34 ∧ z ≠ 34 ∧ x ≠ 92 ∧ y ≠ 92 ∧ z ≠ 92 ∧ y ≠ 10 ∧ z ≠ 10) → EscCase t c [92, x, y, z]

theorem escCase (t : Bool) (c : UInt8) : EscCase t c (escByte t c) := by
  have h := escClass_all t c
  unfold escClass at h
  split at h
  · rename_i d heq
    rw [heq]
    simp only [Bool.and_eq_true, decide_eq_true_eq, Bool.or_eq_true, ne_eq, decide_not, Bool.not_eq_true',
      decide_eq_false_iff_not] at h
    obtain ⟨⟨⟨⟨⟨h1, h2⟩, h3⟩, h4⟩, h5⟩, h6⟩ := h
    subst h1
    exact .plain h2 h3 (by intro e; cases h4 with | inl h => exact absurd e h | inr h => exact h) h5 h6
  · rename_i a e heq
    rw [heq]
    simp only [Bool.and_eq_true, decide_eq_true_eq, ne_eq, decide_not, Bool.not_eq_true',
      decide_eq_false_iff_not] at h
    obtain ⟨⟨⟨⟨⟨h1, h2⟩, h3⟩, h4⟩, h5⟩, h6⟩ := h
    subst h1
    exact .simple e h2 h3 h4 h5 h6
  · rename_i a x y z heq
    rw [heq]
    simp only [Bool.and_eq_true, decide_eq_true_eq, ne_eq, decide_not, Bool.not_eq_true',
      decide_eq_false_iff_not] at h
    obtain ⟨⟨⟨⟨⟨⟨⟨h1, h2⟩, h3⟩, h4⟩, h5⟩, h6⟩, h7⟩, ⟨⟨⟨⟨⟨⟨⟨a1, a2⟩, a3⟩, a4⟩, a5⟩, a6⟩, a7⟩, a8⟩⟩ := h
    subst h1
    exact .oct x y z h2 h3 h4 h5 h6 h7 ⟨a1, a2, a3, a4, a5, a6, a7, a8⟩
  · exact absurd h (by simp)

/-- one escaped byte decodes to that byte, whatever follows -/
theorem unescape_escByte (t : Bool) (c : UInt8) (rest : Bytes) (n : Nat) :
    unescape (n + 1) (escByte t c ++ rest) = (unescape n rest).map (c :: ·) := by
  generalize hE : escByte t c = E
  have h := escCase t c
  rw [hE] at h
  cases h with
  | plain h1 =>
    simp [unescape, h1]
  | simple e h1 h2 h3 =>
    simp [unescape, escapeSeq, h1, h2, h3]
  | oct x y z h1 h2 h3 h4 h5 h6 =>
    have hc := c.toNat_lt
    have h6' := h6
    simp only [List.cons_append, List.nil_append, unescape, escapeSeq, h5, h4, h1, octRun, h2, h3, h6]
    simp only [if_true, if_false, Bool.false_eq_true]
    rw [if_neg (by omega)]
    simp [UInt8.ofNat_toNat]

theorem unescape_plain (c : UInt8) (rest : Bytes) (n : Nat) (h : c ≠ 92) :
    unescape (n + 1) (c :: rest) = (unescape n rest).map (c :: ·) := by
  simp [unescape, h]

theorem escByte_length_pos (t : Bool) (c : UInt8) : 1 ≤ (escByte t c).length := by
  generalize hE : escByte t c = E
  have h := escCase t c
  rw [hE] at h
  cases h <;> simp

theorem unescape_quoteBody (t : Bool) (s : Bytes) :
    ∀ n, (quoteBody t s).length < n → unescape n (quoteBody t s) = some s := by
  fun_induction quoteBody t s with
  | case1 => intro n hn; cases n with
    | zero => simp at hn
    | succ n => simp [unescape]
  | case2 c rest' h ih =>
    intro n hn
    simp only [Bool.and_eq_true, decide_eq_true_eq] at h
    obtain ⟨⟨rfl, _⟩, _⟩ := h
    match n, hn with
    | n + 2, hn =>
      rw [unescape_plain _ _ _ (by decide), unescape_plain _ _ _ (by decide), ih n (by simpa using hn)]; rfl
    | 1, hn => simp at hn
    | 0, hn => simp at hn
  | case3 c d rest' hd h ih =>
    intro n hn
    simp only [Bool.and_eq_true, decide_eq_true_eq] at h
    obtain ⟨⟨rfl, _⟩, _⟩ := h
    match n, hn with
    | n + 1, hn => rw [unescape_plain _ _ _ (by decide), ih n (by simpa using hn)]; rfl
    | 0, hn => simp at hn
  | case4 c h => simp [passQuote] at h
  | case5 c rest h ih =>
    intro n hn
    match n, hn with
    | n + 1, hn =>
      rw [unescape_escByte, ih n (by have := escByte_length_pos t c; simp at hn; omega)]; rfl
    | 0, hn => simp at hn

/-- prepend consumed text to a scan result -/
def pre (t : Bytes) (r : Option (Bytes × Bytes)) : Option (Bytes × Bytes) := r.map fun (a, b) => (t ++ a, b)

theorem pre_pre (a b : Bytes) (r) : pre a (pre b r) = pre (a ++ b) r := by
  unfold pre; cases r <;> simp

theorem scanSingle_plain (q c : UInt8) (rest : Bytes) (h1 : c ≠ 10) (h2 : c ≠ q) (h3 : c ≠ 92) :
    scanSingle q (c :: rest) = pre [c] (scanSingle q rest) := by
  rw [scanSingle.eq_def]; simp [h1, h2, h3, pre]

theorem scanSingle_esc (q d : UInt8) (rest : Bytes) (h2 : (92 : UInt8) ≠ q) :
    scanSingle q (92 :: d :: rest) = pre [92, d] (scanSingle q rest) := by
  rw [scanSingle.eq_def]; simp [h2, pre]

theorem scanSingle_close (q : UInt8) (rest : Bytes) (h : q ≠ 10) :
    scanSingle q (q :: rest) = some ([q], rest) := by
  rw [scanSingle.eq_def]; simp [h]

theorem scanTriple_plain (q c : UInt8) (c1 c2 : Bool) (rest : Bytes) (h1 : (c1 && c2 && decide (c = q)) = false)
    (h3 : c ≠ 92) :
    scanTriple q c1 c2 (c :: rest) = pre [c] (scanTriple q c2 (c = q) rest) := by
  rw [scanTriple.eq_def]; simp only [h1, h3, pre]; simp

theorem scanTriple_esc (q d : UInt8) (c1 c2 : Bool) (rest : Bytes) (h2 : (92 : UInt8) ≠ q) :
    scanTriple q c1 c2 (92 :: d :: rest) = pre [92, d] (scanTriple q c2 false rest) := by
  rw [scanTriple.eq_def]; simp [h2, pre]

theorem scanTriple_close (q : UInt8) (rest : Bytes) :
    scanTriple q true true (q :: rest) = some ([q], rest) := by
  rw [scanTriple.eq_def]; simp

theorem quoteBody_false_cons (c : UInt8) (s : Bytes) :
    quoteBody false (c :: s) = escByte false c ++ quoteBody false s := by
  rw [quoteBody.eq_def]; simp

theorem scanSingle_escByte (c : UInt8) (rest : Bytes) :
    scanSingle 34 (escByte false c ++ rest) = pre (escByte false c) (scanSingle 34 rest) := by
  generalize hE : escByte false c = E
  have h := escCase false c
  rw [hE] at h
  cases h with
  | plain h1 h2 h3 =>
    have h4 : c ≠ 10 := fun e => by simpa using h3 e
    exact scanSingle_plain _ _ _ h4 h2 h1
  | simple e h1 h2 h3 => exact scanSingle_esc _ _ _ (by decide)
  | oct x y z h1 h2 h3 h4 h5 h6 h7 =>
    obtain ⟨a1, a2, a3, a4, a5, a6, a7, a8⟩ := h7
    show scanSingle 34 (92 :: x :: y :: z :: rest) = _
    rw [scanSingle_esc _ _ _ (by decide), scanSingle_plain _ _ _ a7 a2 a5, scanSingle_plain _ _ _ a8 a3 a6,
      pre_pre, pre_pre]; rfl

theorem scanSingle_quoteBody (s rest : Bytes) :
    scanSingle 34 (quoteBody false s ++ 34 :: rest) = some (quoteBody false s ++ [34], rest) := by
  induction s with
  | nil => exact scanSingle_close _ _ (by decide)
  | cons c s ih =>
    rw [quoteBody_false_cons, List.append_assoc, scanSingle_escByte, ih]
    simp [pre]

theorem scanTriple_escByte (c : UInt8) (rest : Bytes) (c1 c2 : Bool) :
    ∃ d1, scanTriple 34 c1 c2 (escByte true c ++ rest) = pre (escByte true c) (scanTriple 34 d1 false rest) := by
  generalize hE : escByte true c = E
  have h := escCase true c
  rw [hE] at h
  cases h with
  | plain h1 h2 h3 =>
    refine ⟨c2, ?_⟩
    have := scanTriple_plain 34 c c1 c2 rest (by simp [h2]) h1
    simpa [h2] using this
  | simple e h1 h2 h3 => exact ⟨c2, scanTriple_esc _ _ _ _ _ (by decide)⟩
  | oct x y z h1 h2 h3 h4 h5 h6 h7 =>
    obtain ⟨a1, a2, a3, a4, a5, a6, a7, a8⟩ := h7
    refine ⟨false, ?_⟩
    show scanTriple 34 c1 c2 (92 :: x :: y :: z :: rest) = _
    rw [scanTriple_esc _ _ _ _ _ (by decide), scanTriple_plain _ _ _ _ _ (by simp) a5,
      scanTriple_plain _ _ _ _ _ (by simp [a2]) a6, pre_pre, pre_pre]
    simp [a2, a3]

theorem scanTriple_quoteBody (s rest : Bytes) (t : Bool) (ht : t = true) : ∀ c1 c2 : Bool,
    (c2 = true → ∃ d s', s = d :: s' ∧ d ≠ 34) →
    scanTriple 34 c1 c2 (quoteBody t s ++ 34 :: 34 :: 34 :: rest) =
      some (quoteBody t s ++ [34, 34, 34], rest) := by
  fun_induction quoteBody t s with
  | case1 =>
    intro c1 c2 h
    cases c2 with
    | false =>
      show scanTriple 34 c1 false (34 :: 34 :: 34 :: rest) = _
      rw [scanTriple_plain _ _ _ _ _ (by simp) (by decide), scanTriple_plain _ _ _ _ _ (by simp) (by decide)]
      simp [scanTriple_close, pre]
    | true => obtain ⟨_, _, h, _⟩ := h rfl; simp at h
  | case2 c rest' h ih =>
    intro c1 c2 hc
    simp only [Bool.and_eq_true, decide_eq_true_eq] at h
    obtain ⟨⟨rfl, _⟩, hp⟩ := h
    cases c2 with
    | true => obtain ⟨d, s', h, hd⟩ := hc rfl; simp at h; exact absurd h.1.symm hd
    | false =>
      have hn : ∃ d s', rest' = d :: s' ∧ d ≠ 34 := by
        cases rest' with
        | nil => simp [passQuote] at hp
        | cons e l => exact ⟨e, l, rfl, by simpa [passQuote] using hp⟩
      have := ih true true (fun _ => hn)
      simp only [List.cons_append]
      rw [scanTriple_plain _ _ _ _ _ (by simp) (by decide), scanTriple_plain _ _ _ _ _ (by simp) (by decide)]
      simp [this, pre]
  | case3 c d rest' hd h ih =>
    intro c1 c2 hc
    simp only [Bool.and_eq_true, decide_eq_true_eq] at h
    obtain ⟨⟨rfl, _⟩, hp⟩ := h
    cases c2 with
    | true => obtain ⟨d, s', h, hd⟩ := hc rfl; simp at h; exact absurd h.1.symm hd
    | false =>
      have := ih false true (fun _ => ⟨d, rest', rfl, hd⟩)
      simp only [List.cons_append]
      rw [scanTriple_plain _ _ _ _ _ (by simp) (by decide)]
      simp [this, pre]
  | case4 c h => simp [passQuote] at h
  | case5 c rest' h ih =>
    intro c1 c2 hc
    subst ht
    obtain ⟨d1, hd⟩ := scanTriple_escByte c (quoteBody true rest' ++ 34 :: 34 :: 34 :: rest) c1 c2
    rw [List.append_assoc, hd, ih d1 false (by simp)]
    simp [pre]

theorem escByte_ascii (t : Bool) (c : UInt8) :
    ∀ b ∈ escByte t c, (0x20 ≤ b ∧ b < 0x80) ∨ (t = true ∧ b = 10) := by
  generalize hE : escByte t c = E
  have h := escCase t c
  rw [hE] at h
  cases h with
  | plain h1 h2 h3 h4 h5 =>
    intro b hb; simp at hb; subst hb
    rcases h4 with h | h
    · exact .inl ⟨h, h5⟩
    · exact .inr ⟨h3 h, h⟩
  | simple e h1 h2 h3 h4 h5 =>
    intro b hb; simp at hb
    rcases hb with rfl | rfl
    · exact .inl (by decide)
    · exact .inl ⟨h4, h5⟩
  | oct x y z h1 h2 h3 h4 h5 h6 h7 =>
    intro b hb; simp at hb
    rcases hb with rfl | rfl | rfl | rfl
    · exact .inl (by decide)
    · exact .inl (isOct_lt _ h1)
    · exact .inl (isOct_lt _ h2)
    · exact .inl (isOct_lt _ h3)

theorem quoteBody_ascii (t : Bool) (s : Bytes) :
    ∀ b ∈ quoteBody t s, (0x20 ≤ b ∧ b < 0x80) ∨ (t = true ∧ b = 10) := by
  fun_induction quoteBody t s with
  | case1 => simp
  | case2 c rest' h ih =>
    simp only [Bool.and_eq_true, decide_eq_true_eq] at h
    intro b hb; simp at hb
    rcases hb with rfl | hb
    · rw [h.1.1]; exact .inl (by decide)
    · exact ih b hb
  | case3 c d rest' hd h ih =>
    simp only [Bool.and_eq_true, decide_eq_true_eq] at h
    intro b hb; simp at hb
    rcases hb with rfl | hb
    · rw [h.1.1]; exact .inl (by decide)
    · exact ih b hb
  | case4 c h => simp [passQuote] at h
  | case5 c rest h ih =>
    intro b hb
    rcases List.mem_append.1 hb with hb | hb
    · exact escByte_ascii t c b hb
    · exact ih b hb

/-- the first byte of a quoted body is never a bare quote in one-line mode -/
theorem quoteBody_head (s : Bytes) : (quoteBody false s).head? ≠ some 34 := by
  cases s with
  | nil => simp [quoteBody]
  | cons c s =>
    rw [quoteBody_false_cons]
    generalize hE : escByte false c = E
    have h := escCase false c
    rw [hE] at h
    cases h with
    | plain h1 h2 => simp [h2]
    | simple e => simp
    | oct x y z => simp

theorem quoteBody_eq_nil (t : Bool) (s : Bytes) : quoteBody t s = [] ↔ s = [] := by
  fun_induction quoteBody t s with
  | case1 => simp
  | case2 => simp
  | case3 => simp
  | case4 => simp
  | case5 c rest h ih =>
    have := escByte_length_pos t c
    simp
    intro h; simp [h] at this

end Verif.Quote
