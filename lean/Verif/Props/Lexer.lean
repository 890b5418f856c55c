import Verif.Model.Lexer
import Verif.Proofs.QuotePrint
/-
C47: indentation tokens are balanced. C48: the tokens tile the input.
-/
namespace Verif.Props.Lexer
open Verif Verif.Syntax Verif.Lexer

/-! ## Specification -/

/-- The position after reading `pre` from the start of a file: line and column count from 1, bytes from 0. Columns count the bytes
that do not continue a UTF-8 sequence. -/
def posAt (pre : Bytes) : Pos :=
  ⟨1 + pre.count 10, 1 + ((pre.reverse.takeWhile (· != 10)).filter (fun b => !(0x80 ≤ b && b < 0xC0))).length, pre.length⟩

/-- The token kinds with a fixed text. -/
def fixedTokens : List (Kind × Bytes) :=
  [(91, b!"["), (40, b!"("), (123, b!"{"), (93, b!"]"), (41, b!")"), (125, b!"}"), (46, b!"."), (58, b!":"), (59, b!";"), (44, b!","),
   (60, b!"<"), (62, b!">"), (61, b!"="), (33, b!"!"), (43, b!"+"), (45, b!"-"), (42, b!"*"), (47, b!"/"), (37, b!"%"), (124, b!"|"),
   (38, b!"&"), (126, b!"~"), (94, b!"^"),
   (K.starStar, b!"**"), (K.arrow, b!"->"), (K.intDiv, b!"//"), (K.lsh, b!"<<"), (K.rsh, b!">>"), (K.le, b!"<="), (K.ge, b!">="),
   (K.eq, b!"=="), (K.ne, b!"!="),
   (K.augm, b!"+="), (K.augm, b!"-="), (K.augm, b!"*="), (K.augm, b!"/="), (K.augm, b!"%="), (K.augm, b!"|="), (K.augm, b!"&="),
   (K.augm, b!"^="), (K.augm, b!"//="), (K.augm, b!"<<="), (K.augm, b!">>="),
   (K.and, b!"and"), (K.for_, b!"for"), (K.if_, b!"if"), (K.else_, b!"else"), (K.elif, b!"elif"), (K.in_, b!"in"), (K.is, b!"is"),
   (K.lambda, b!"lambda"), (K.load, b!"load"), (K.not, b!"not"), (K.or, b!"or"), (K.def_, b!"def"), (K.return_, b!"return"),
   (K.pass, b!"pass"), (K.break_, b!"break"), (K.continue_, b!"continue"), (K.newline, b!"\n"), (K.indent, []), (K.unindent, []), (K.eof, [])]

/-- A letter, digit, underscore or byte of a non-ASCII character. -/
def wordByte (b : UInt8) : Prop := (48 ≤ b ∧ b ≤ 57) ∨ (65 ≤ b ∧ b ≤ 90) ∨ (97 ≤ b ∧ b ≤ 122) ∨ b = 95 ∨ 128 ≤ b

/-- What the text of a token of each kind looks like. -/
inductive TokText : Tok → Prop
  | fixed (t) : (t.kind, t.tok) ∈ fixedTokens → TokText t
  | ident (t) (c) (s) : t.kind = K.ident → t.tok = c :: s → ¬ (48 ≤ c ∧ c ≤ 57) → wordByte c → (∀ b ∈ s, wordByte b) → TokText t
  | int (t) (c) (s) : t.kind = K.int → t.tok = c :: s → (48 ≤ c ∧ c ≤ 57) → (∀ b ∈ s, wordByte b ∨ b = 43 ∨ b = 45) → TokText t
  | string (t) (raw delim body) : t.kind = K.string → t.tok = raw ++ delim ++ body ++ delim → (raw = [] ∨ raw = b!"r") →
      delim ∈ [b!"\"", b!"'", b!"\"\"\"", b!"'''"] → TokText t
  | comment (t) (s) : t.kind = K.comment → t.tok = 35 :: s → 10 ∉ s → TokText t

/-- `Tiled pre text ts cs`: after `pre`, the input goes on with `text`, which consists of the tokens `ts` in order, each at its own
position, ended by the end-of-file token, and between them nothing but blanks, escaped line ends, and the comments `cs` (with their
positions), each of which runs to the end of its line. -/
inductive Tiled : Bytes → Bytes → List Tok → List Comment → Prop
  | eof (pre t) : t.kind = K.eof → t.tok = [] → t.pos = posAt pre → Tiled pre [] [t] []
  | blank (pre c s ts cs) : (c = 32 ∨ c = 9 ∨ c = 13 ∨ c = 10) → Tiled (pre ++ [c]) s ts cs → Tiled pre (c :: s) ts cs
  | continued (pre s ts cs) : Tiled (pre ++ b!"\\\n") s ts cs → Tiled pre (b!"\\\n" ++ s) ts cs
  | comment (pre text s ts cs) : (35 :: text).all (· != 10) → s.head? = some 10 ∨ s = [] → Tiled (pre ++ (35 :: text)) s ts cs →
      Tiled pre ((35 :: text) ++ s) ts (⟨posAt pre, 35 :: text⟩ :: cs)
  | tok (pre t s ts cs) : t.kind ≠ K.eof → t.pos = posAt pre → TokText t → Tiled (pre ++ t.tok) s ts cs → Tiled pre (t.tok ++ s) (t :: ts) cs

/-- Number of tokens of a kind. -/
def countKind (k : Kind) (ts : List Tok) : Nat := (ts.filter (fun t => t.kind == k)).length

/-- Opening minus closing brackets. -/
def nesting (ts : List Tok) : Int :=
  (countKind 91 ts + countKind 40 ts + countKind 123 ts : Nat) - (countKind 93 ts + countKind 41 ts + countKind 125 ts : Nat)

/-! ## Positions -/

theorem posAt_nil : posAt [] = ⟨1, 1, 0⟩ := rfl

theorem posAt_snoc (pre : Bytes) (c : UInt8) : posAt (pre ++ [c]) = advPos (posAt pre) c := by
  unfold posAt advPos
  by_cases h : c = 10
  · subst h
    simp
    omega
  · rw [if_neg h]
    have h0 : (c != 10) = true := by simpa using h
    have h3 : (pre ++ [c]).count 10 = pre.count 10 := by simp [List.count_append, h]
    have h4 : ((pre ++ [c]).reverse.takeWhile (· != 10)) = c :: pre.reverse.takeWhile (· != 10) := by
      simp [h0]
    rw [h3, h4, List.filter_cons]
    by_cases h2 : (0x80 ≤ c && c < 0xC0) = true
    · simp [h2]
    · simp only [Bool.not_eq_true] at h2
      simp [h2]
      omega

theorem posAt_append (pre s : Bytes) : posAt (pre ++ s) = s.foldl advPos (posAt pre) := by
  induction s generalizing pre with
  | nil => simp
  | cons c s ih =>
    rw [List.foldl_cons, ← posAt_snoc, ← ih]
    simp

/-! ## The skip loop -/

/-- The lexer's notion of where it is agrees with what it has read. -/
def Inv (st : State) : Prop := st.pos = posAt st.done.reverse

theorem inv_adv {st : State} (h : Inv st) (t r : Bytes) : Inv (st.adv t r) := by
  unfold Inv State.adv at *
  simp only [List.reverse_append, List.reverse_reverse]
  rw [posAt_append, h]

/-- the comments the lexer has saved; the empty ones mark blank lines -/
def saved (st : State) : List Comment := st.lineComments.filter (fun c => !c.token.isEmpty) ++ st.suffixComments

/-- What a piece of skipped input, with comments `cs0`, does to the tiling of what follows. -/
def Skips (st st' : State) (cs0 : List Comment) : Prop :=
  (∀ ts cs, Tiled st'.done.reverse st'.rest ts cs → Tiled st.done.reverse st.rest ts (cs0 ++ cs)) ∧
  Inv st' ∧ List.Perm (saved st') (saved st ++ cs0) ∧ st'.rest.length ≤ st.rest.length

theorem skips_refl {st st' : State} (h : Inv st) (h1 : st'.done = st.done) (h2 : st'.rest = st.rest) (h3 : st'.pos = st.pos)
    (h4 : st'.lineComments = st.lineComments) (h5 : st'.suffixComments = st.suffixComments) : Skips st st' [] := by
  refine ⟨fun ts cs ht => ?_, ?_, ?_, ?_⟩
  · rw [h1, h2] at ht; exact ht
  · unfold Inv at *; rw [h1, h3]; exact h
  · simp [saved, h4, h5]
  · rw [h2]; exact Nat.le_refl _

theorem skips_trans {a b c : State} {l1 l2 : List Comment} (h1 : Skips a b l1) (h2 : Skips b c l2) : Skips a c (l1 ++ l2) := by
  refine ⟨fun ts cs ht => ?_, h2.2.1, ?_, Nat.le_trans h2.2.2.2 h1.2.2.2⟩
  · have := h1.1 _ _ (h2.1 _ _ ht)
    simpa using this
  · have := h2.2.2.1.trans (h1.2.2.1.append_right l2)
    simpa using this

theorem skips_blank {st st' : State} {c : UInt8} {r : Bytes} (h : Inv st) (hr : st.rest = c :: r) (hc : c = 32 ∨ c = 9 ∨ c = 13 ∨ c = 10)
    (h1 : st'.done = c :: st.done) (h2 : st'.rest = r) (h3 : st'.pos = advPos st.pos c)
    (h4 : st'.lineComments = st.lineComments) (h5 : st'.suffixComments = st.suffixComments) : Skips st st' [] := by
  refine ⟨fun ts cs ht => ?_, ?_, ?_, ?_⟩
  · rw [hr]
    rw [h1, h2] at ht
    exact Tiled.blank _ _ _ _ _ hc (by simpa using ht)
  · unfold Inv at *
    rw [h1, h3, h, List.reverse_cons, posAt_snoc]
  · simp [saved, h4, h5]
  · rw [h2, hr]; simp

theorem skips_cont {st st' : State} {r : Bytes} (h : Inv st) (hr : st.rest = 92 :: 10 :: r)
    (h1 : st'.done = 10 :: 92 :: st.done) (h2 : st'.rest = r) (h3 : st'.pos = advPos (advPos st.pos 92) 10)
    (h4 : st'.lineComments = st.lineComments) (h5 : st'.suffixComments = st.suffixComments) : Skips st st' [] := by
  refine ⟨fun ts cs ht => ?_, ?_, ?_, ?_⟩
  · rw [hr]
    rw [h1, h2] at ht
    exact Tiled.continued _ _ _ _ (by simpa using ht)
  · unfold Inv at *
    rw [h1, h3, h, List.reverse_cons, List.reverse_cons, posAt_snoc, posAt_snoc]
  · simp [saved, h4, h5]
  · rw [h2, hr]; simp only [List.length_cons]; omega

theorem takeWhile_all_ne (l : Bytes) : (l.takeWhile (· != 10)).all (· != 10) = true := by
  induction l with
  | nil => rfl
  | cons c l ih =>
    by_cases h : (c != 10) = true
    · simp only [List.takeWhile_cons, h, if_true, List.all_cons, ih, Bool.and_self]
    · simp only [List.takeWhile_cons, h]
      simp

theorem dropWhile_head (l : Bytes) : (l.dropWhile (· != 10)).head? = some 10 ∨ l.dropWhile (· != 10) = [] := by
  induction l with
  | nil => exact .inr rfl
  | cons c l ih =>
    by_cases h : (c != 10) = true
    · simp only [List.dropWhile_cons, h, if_true]; exact ih
    · simp only [List.dropWhile_cons, h]
      left
      simp at h
      simp [h]

theorem skips_comment {st st' : State} {r : Bytes} {lc : List Comment} (h : Inv st) (hr : st.rest = 35 :: r)
    (h1 : st'.done = (st.rest.takeWhile (· != 10)).reverse ++ st.done) (h2 : st'.rest = st.rest.dropWhile (· != 10))
    (h3 : st'.pos = (st.rest.takeWhile (· != 10)).foldl advPos st.pos) (hlc : lc.filter (fun c => !c.token.isEmpty) = st.lineComments.filter (fun c => !c.token.isEmpty))
    (h4 : (st'.lineComments = lc ∧ st'.suffixComments = st.suffixComments ++ [⟨st.pos, st.rest.takeWhile (· != 10)⟩]) ∨
      (st'.lineComments = lc ++ [⟨st.pos, st.rest.takeWhile (· != 10)⟩] ∧ st'.suffixComments = st.suffixComments)) :
    Skips st st' [⟨st.pos, st.rest.takeWhile (· != 10)⟩] := by
  have hd : (35 : UInt8) != 10 := by decide
  have htw : st.rest.takeWhile (· != 10) = 35 :: r.takeWhile (· != 10) := by rw [hr, List.takeWhile_cons, if_pos hd]
  have hall := takeWhile_all_ne st.rest
  refine ⟨fun ts cs ht => ?_, ?_, ?_, ?_⟩
  · rw [h1, h2] at ht
    have key := Tiled.comment st.done.reverse (r.takeWhile (· != 10)) (st.rest.dropWhile (· != 10)) ts cs (by rw [← htw]; exact hall)
      (dropWhile_head _) (by rw [← htw]; simpa using ht)
    rw [← htw, List.takeWhile_append_dropWhile, ← h] at key
    simpa using key
  · unfold Inv at *
    rw [h1, h3, h, List.reverse_append, List.reverse_reverse, posAt_append]
  · rcases h4 with ⟨a, b⟩ | ⟨a, b⟩
    · simp [saved, a, b, hlc]
    · have : ([⟨st.pos, st.rest.takeWhile (· != 10)⟩] : List Comment).filter (fun c => !c.token.isEmpty) = [⟨st.pos, st.rest.takeWhile (· != 10)⟩] := by
        rw [htw]; rfl
      simp only [saved, a, b, List.filter_append, hlc, this, List.append_assoc]
      exact List.Perm.append_left _ List.perm_append_comm
  · rw [h2]
    exact (List.dropWhile_sublist _).length_le

/-- The text at which the loop stops: the end, or something that is not a blank, comment or continuation. -/
def Stop : Bytes → Prop
  | [] => True
  | c :: r => c ≠ 10 ∧ c ≠ 32 ∧ ¬ (c = 9 || c = 13) = true ∧ c ≠ 35 ∧ ¬ (c = 92 && r.head? == some 10) = true

theorem skip_stop (f : Nat) (st : State) (nl : Nat) (h : Stop st.rest) : skip (f + 1) st nl = .found st := by
  unfold skip
  cases hr : st.rest with
  | nil => rfl
  | cons c r =>
    rw [hr] at h
    obtain ⟨h1, h2, h3, h4, h5⟩ := h
    dsimp only
    rw [if_neg h1, if_neg h2, if_neg (by simpa using h3), if_neg h4, if_neg (by simpa using h5)]

/-- What the loop has done when it stops. -/
def SkipSpec (st : State) : Skip → Prop
  | .found st' => ∃ cs, Skips st st' cs ∧ st'.depth = st.depth ∧ st'.indents = st.indents ∧
      (st'.rest.length = st.rest.length → st' = st) ∧
      Stop st'.rest
  | .newline p st' => ∃ st1 cs, Skips st st1 cs ∧ st1.rest = 10 :: st'.rest ∧ p = st1.pos ∧
      st' = (({ st1 with indent := 0, clean := true }).adv [10] st'.rest) ∧
      st'.depth = st.depth ∧ st.depth = 0 ∧ st'.indents = st.indents
  | .comment p t st' => ∃ st1 cs r, Skips st st1 cs ∧ st1.rest = 35 :: r ∧ p = st1.pos ∧ t = st1.rest.takeWhile (· != 10) ∧
      st' = (({ st1 with indent := 0, clean := true }).adv t (st1.rest.dropWhile (· != 10))) ∧ st'.depth = st.depth ∧ st.depth = 0 ∧
      st'.indents = st.indents

theorem skip_spec : ∀ (f : Nat) (st : State) (nl : Nat), Inv st → st.rest.length < f → SkipSpec st (skip f st nl) := by
  intro f
  induction f with
  | zero => intro st nl _ h; exact absurd h (Nat.not_lt_zero _)
  | succ f ih =>
    intro st nl hinv hlen
    -- combine one skipped piece with the rest of the loop
    have glue : ∀ (st1 : State) (n : Nat) (c0 : List Comment), Skips st st1 c0 → st1.depth = st.depth → st1.indents = st.indents →
        st1.rest.length < st.rest.length →
        SkipSpec st (skip f st1 n) := by
      intro st1 n c0 hs hd hi hl
      have h := ih st1 n hs.2.1 (by omega)
      cases hk : skip f st1 n with
      | found st' =>
        rw [hk] at h
        obtain ⟨cs, a, b, c, d, e⟩ := h
        exact ⟨c0 ++ cs, skips_trans hs a, b.trans hd, c.trans hi, fun he => absurd he (by have := a.2.2.2; omega), e⟩
      | newline p st' =>
        rw [hk] at h
        obtain ⟨st2, cs, a, b, c, d, e, g, i⟩ := h
        exact ⟨st2, c0 ++ cs, skips_trans hs a, b, c, d, e.trans hd, hd ▸ g, i.trans hi⟩
      | comment p t st' =>
        rw [hk] at h
        obtain ⟨st2, cs, r, a, b, c, d, e, g, i, j⟩ := h
        exact ⟨st2, c0 ++ cs, r, skips_trans hs a, b, c, d, e, g.trans hd, hd ▸ i, j.trans hi⟩
    unfold skip
    cases hr : st.rest with
    | nil =>
      dsimp only
      exact ⟨[], skips_refl hinv rfl rfl rfl rfl rfl, rfl, rfl, fun _ => rfl, by rw [hr]; trivial⟩
    | cons c r =>
      dsimp only
      have hlr : r.length < st.rest.length := by rw [hr]; exact Nat.lt_succ_self _
      by_cases h10 : c = 10
      · rw [if_pos h10]
        subst h10
        by_cases hdep : st.depth = 0
        · rw [if_pos hdep]
          exact ⟨st, [], skips_refl hinv rfl rfl rfl rfl rfl, hr, rfl, rfl, rfl, hdep, rfl⟩
        · rw [if_neg hdep]
          refine glue _ _ [] ?_ ?_ ?_ ?_
          · exact skips_blank hinv hr (by simp) rfl rfl rfl rfl rfl
          · rfl
          · rfl
          · exact hlr
      · rw [if_neg h10]
        by_cases h32 : c = 32
        · rw [if_pos h32]
          subst h32
          by_cases hcl : st.clean = true
          · rw [if_pos hcl]
            refine glue _ _ [] ?_ ?_ ?_ ?_
            · exact skips_blank hinv hr (by simp) rfl rfl rfl rfl rfl
            · rfl
            · rfl
            · exact hlr
          · rw [if_neg hcl]
            refine glue _ _ [] ?_ ?_ ?_ ?_
            · exact skips_blank hinv hr (by simp) rfl rfl rfl rfl rfl
            · rfl
            · rfl
            · exact hlr
        · rw [if_neg h32]
          by_cases h9 : (c = 9 || c = 13) = true
          · rw [if_pos (by simpa using h9)]
            refine glue _ _ [] ?_ ?_ ?_ ?_
            · exact skips_blank hinv hr (by simp at h9; rcases h9 with h | h <;> simp [h]) rfl rfl rfl rfl rfl
            · rfl
            · rfl
            · exact hlr
          · rw [if_neg (by simpa using h9)]
            by_cases h35 : c = 35
            · rw [if_pos h35]
              subst h35
              by_cases hcm : (st.depth = 0 && st.clean) = true
              · rw [if_pos (by simpa using hcm)]
                refine ⟨st, [], r, skips_refl hinv rfl rfl rfl rfl rfl, hr, rfl, by rw [hr], by rw [hr], rfl, ?_, rfl⟩
                simp at hcm; exact hcm.1
              · rw [if_neg (by simpa using hcm)]
                have hlen2 : ((35 :: r).dropWhile (· != 10)).length < st.rest.length := by
                  have hd : (35 : UInt8) != 10 := by decide
                  rw [List.dropWhile_cons, if_pos hd]
                  exact Nat.lt_of_le_of_lt (List.dropWhile_sublist _).length_le hlr
                have hlcf : (if nl > 1 then st.lineComments ++ [⟨st.pos, []⟩] else st.lineComments).filter (fun c => !c.token.isEmpty) =
                    st.lineComments.filter (fun c => !c.token.isEmpty) := by
                  by_cases hn : nl > 1
                  · rw [if_pos hn]; simp
                  · rw [if_neg hn]
                rw [← hr]
                rw [← hr] at hlen2
                by_cases hsf : isSuffixComment (st.done.takeWhile (· != 10)) = true
                · rw [if_pos hsf]
                  refine glue _ _ [⟨st.pos, st.rest.takeWhile (· != 10)⟩] ?_ ?_ ?_ ?_
                  · exact skips_comment hinv hr rfl rfl rfl hlcf (.inl ⟨rfl, rfl⟩)
                  · rfl
                  · rfl
                  · exact hlen2
                · rw [if_neg hsf]
                  refine glue _ _ [⟨st.pos, st.rest.takeWhile (· != 10)⟩] ?_ ?_ ?_ ?_
                  · exact skips_comment hinv hr rfl rfl rfl hlcf (.inr ⟨rfl, rfl⟩)
                  · rfl
                  · rfl
                  · exact hlen2
            · rw [if_neg h35]
              by_cases hbs : (c = 92 && r.head? == some 10) = true
              · rw [if_pos (by simpa using hbs)]
                simp at hbs
                obtain ⟨hb1, hb2⟩ := hbs
                subst hb1
                cases r with
                | nil => cases hb2
                | cons d r2 =>
                  simp at hb2; subst hb2
                  refine glue _ _ [] ?_ ?_ ?_ ?_
                  · exact skips_cont hinv hr rfl rfl rfl rfl rfl
                  · rfl
                  · rfl
                  · rw [hr]; simp only [List.drop_succ_cons, List.drop_zero, State.adv, List.length_cons]; omega
              · rw [if_neg (by simpa using hbs)]
                exact ⟨[], skips_refl hinv rfl rfl rfl rfl rfl, rfl, rfl, fun _ => rfl, by rw [hr]; exact ⟨h10, h32, h9, h35, hbs⟩⟩

/-! ## Tokens -/

theorem isIdent_iff (c : UInt8) : isIdent c = true ↔ wordByte c := by
  unfold isIdent wordByte
  simp [or_assoc]

theorem isDigit_iff (c : UInt8) : isDigit c = true ↔ (48 ≤ c ∧ c ≤ 57) := by
  unfold isDigit
  simp

theorem scanIdent_split (d : Bool) : ∀ (r : Bytes) (l : UInt8), (scanIdent d l r).1 ++ (scanIdent d l r).2 = r := by
  intro r
  induction r with
  | nil => intro l; rfl
  | cons c r ih =>
    intro l
    unfold scanIdent
    split
    · simp [ih c]
    · rfl

theorem scanIdent_bytes (d : Bool) : ∀ (r : Bytes) (l : UInt8), ∀ b ∈ (scanIdent d l r).1, wordByte b ∨ (d = true ∧ (b = 43 ∨ b = 45)) := by
  intro r
  induction r with
  | nil => intro l b h; cases h
  | cons c r ih =>
    intro l b h
    unfold scanIdent at h
    split at h
    · rename_i hc
      simp only [List.mem_cons] at h
      rcases h with h | h
      · subst h
        simp only [Bool.or_eq_true, Bool.and_eq_true, beq_iff_eq] at hc
        rcases hc with hc | hc
        · exact .inl ((isIdent_iff b).1 hc)
        · exact .inr ⟨hc.1.2, hc.1.1⟩
      · exact ih c b h
    · cases h

theorem kw_step {t kw : Bytes} {k rest : Kind} {P : Kind → Prop} (h1 : t = kw → P k) (h2 : P rest) : P (if t = kw then k else rest) := by
  by_cases h : t = kw
  · rw [if_pos h]; exact h1 h
  · rw [if_neg h]; exact h2

/-- a word is a keyword or a name or a number -/
theorem identKind_spec (t : Bytes) : (identKind t, t) ∈ fixedTokens ∨
    (identKind t = K.int ∧ ∃ c s, t = c :: s ∧ isDigit c = true) ∨
    (identKind t = K.ident ∧ ∀ c s, t = c :: s → isDigit c = false) := by
  unfold identKind
  iterate 16 (refine kw_step (P := fun k => (k, t) ∈ fixedTokens ∨ (k = K.int ∧ ∃ c s, t = c :: s ∧ isDigit c = true) ∨
    (k = K.ident ∧ ∀ c s, t = c :: s → isDigit c = false)) (fun h => .inl (by subst h; decide)) ?_)
  cases t with
  | nil => exact .inr (.inr ⟨rfl, fun c s h => by cases h⟩)
  | cons c s =>
    dsimp only
    by_cases h : isDigit c = true
    · rw [if_pos h]; exact .inr (.inl ⟨rfl, c, s, rfl, h⟩)
    · rw [if_neg h]
      refine .inr (.inr ⟨rfl, fun c' s' h' => ?_⟩)
      cases h'
      simpa using h

theorem scanOp_spec (c : UInt8) (r : Bytes) (hc : isOpByte c = true) :
    (scanOp c r).2.1 ++ (scanOp c r).2.2 = c :: r ∧ ((scanOp c r).1, (scanOp c r).2.1) ∈ fixedTokens ∧ ∃ s, (scanOp c r).2.1 = c :: s := by
  have hmem : c ∈ b!"<>=!+-*/%|&~^" := by
    unfold isOpByte at hc
    exact List.contains_iff_mem.1 hc
  have k1 : ∀ c ∈ b!"<>=!+-*/%|&~^", (c.toNat, [c]) ∈ fixedTokens := by decide
  have k2 : ∀ c ∈ b!"<>=!+-*/%|&~^", c ≠ c!"~" → (if c.toNat = 60 then K.le else if c.toNat = 62 then K.ge else if c.toNat = 61 then K.eq
      else if c.toNat = 33 then K.ne else K.augm, [c] ++ b!"=") ∈ fixedTokens := by decide
  unfold scanOp
  by_cases h1 : c = c!"~"
  · rw [if_pos h1]; exact ⟨rfl, k1 c hmem, _, rfl⟩
  rw [if_neg h1]
  by_cases h2 : c = c!"*" ∧ r.head? = some c!"*"
  · rw [if_pos h2]
    obtain ⟨rfl, h⟩ := h2
    cases r with
    | nil => cases h
    | cons d r => cases h; exact ⟨rfl, by dsimp only; decide, _, rfl⟩
  rw [if_neg h2]
  by_cases h3 : c = c!"-" ∧ r.head? = some c!">"
  · rw [if_pos h3]
    obtain ⟨rfl, h⟩ := h3
    cases r with
    | nil => cases h
    | cons d r => cases h; exact ⟨rfl, by dsimp only; decide, _, rfl⟩
  rw [if_neg h3]
  by_cases h4 : r.head? = some c ∧ (c = c!"/" ∨ c = c!"<" ∨ c = c!">")
  · rw [if_pos h4]
    obtain ⟨h, h'⟩ := h4
    cases r with
    | nil => cases h
    | cons d r =>
      cases h
      simp only [List.drop_one, List.tail_cons]
      by_cases h5 : r.head? = some c!"="
      · rw [if_pos h5]
        cases r with
        | nil => cases h5
        | cons e r => cases h5; rcases h' with rfl | rfl | rfl <;> exact ⟨rfl, by dsimp only; decide, _, rfl⟩
      · rw [if_neg h5]
        rcases h' with rfl | rfl | rfl <;> exact ⟨rfl, by dsimp only; decide, _, rfl⟩
  · rw [if_neg h4]
    dsimp only
    by_cases h5 : r.head? = some c!"="
    · rw [if_pos h5]
      cases r with
      | nil => cases h5
      | cons e r => cases h5; exact ⟨rfl, k2 c hmem h1, _, rfl⟩
    · rw [if_neg h5]
      exact ⟨rfl, k1 c hmem, _, rfl⟩

theorem scanString_split (c : UInt8) (r t r' : Bytes) (h : Scan.scanString (c :: r) = some (t, r')) :
    c :: r = t ++ r' ∧ t ≠ [] ∧ ∃ raw delim body, t = raw ++ delim ++ body ++ delim ∧ (raw = [] ∨ raw = b!"r") ∧
      delim ∈ [b!"\"", b!"'", b!"\"\"\"", b!"'''"] := by
  have tail : ∀ i a b, Scan.scanQuoted i = some (a, b) → i = a ++ b ∧ a ≠ [] ∧ ∃ delim body, a = delim ++ body ++ delim ∧
      delim ∈ [b!"\"", b!"'", b!"\"\"\"", b!"'''"] := by
    intro i a b hh
    obtain ⟨e, q, hqq, hq⟩ := Quote.scanQuoted_shape i a b hh
    refine ⟨e, by cases hq <;> simp, ?_⟩
    cases hq with
    | single B _ => exact ⟨[q], B, rfl, by rcases hqq with rfl | rfl <;> decide⟩
    | triple B _ _ => exact ⟨[q, q, q], B, rfl, by rcases hqq with rfl | rfl <;> decide⟩
  unfold Scan.scanString at h
  dsimp only at h
  by_cases hc : c = c!"r"
  · rw [if_pos hc] at h
    cases hq : Scan.scanQuoted r with
    | none => rw [hq] at h; cases h
    | some ab =>
      rw [hq] at h
      cases h
      obtain ⟨e, _, d, b, e2, hm⟩ := tail _ _ _ hq
      exact ⟨by rw [e]; rfl, by simp, [114], d, b, by rw [hc, e2]; rfl, .inr rfl, hm⟩
  · rw [if_neg hc] at h
    obtain ⟨e, hne, d, b, e2, hm⟩ := tail _ _ _ h
    exact ⟨e, hne, [], d, b, by rw [e2]; rfl, .inl rfl, hm⟩

/-- A scanned token is the front of the input and looks as its kind says. -/
theorem scanTok_spec (c : UInt8) (r : Bytes) (s : Scanned) (h : scanTok c r = some s) (pos : Pos) :
    s.text ++ s.rest = c :: r ∧ s.text ≠ [] ∧ TokText { kind := s.kind, pos := pos, tok := s.text, str := s.str, triple := s.triple } ∧
      s.kind ≠ K.eof ∧ s.kind ≠ K.newline ∧ s.kind ≠ K.comment ∧ s.kind ≠ K.indent ∧ s.kind ≠ K.unindent := by
  have nofix : ∀ k t, (k, t) ∈ fixedTokens → t ≠ [] → t ≠ [10] →
      k ≠ K.eof ∧ k ≠ K.newline ∧ k ≠ K.comment ∧ k ≠ K.indent ∧ k ≠ K.unindent := by
    have : ∀ p ∈ fixedTokens, p.2 ≠ [] → p.2 ≠ [10] →
      p.1 ≠ K.eof ∧ p.1 ≠ K.newline ∧ p.1 ≠ K.comment ∧ p.1 ≠ K.indent ∧ p.1 ≠ K.unindent := by decide
    exact fun k t h => this (k, t) h
  have c10 : ∀ c, (isOpen c || isClose c || isSingle c) = true → ((c.toNat : Kind), [c]) ∈ fixedTokens ∧ [c] ≠ [10] := by
    intro c h
    have hm : c ∈ b!"[({])}.:;," := by
      simp only [isOpen, isClose, isSingle, Bool.or_eq_true, List.contains_iff_mem, List.mem_cons, List.not_mem_nil, or_false] at h
      simp only [List.mem_cons, List.not_mem_nil, or_false]
      rcases h with ((h | h | h) | (h | h | h)) | (h | h | h | h) <;> simp [h]
    exact (by decide : ∀ c ∈ b!"[({])}.:;,", ((c.toNat : Kind), [c]) ∈ fixedTokens ∧ [c] ≠ [10]) c hm
  have o10 : isOpByte 10 = false := by decide
  unfold scanTok at h
  by_cases h1 : (isOpen c || isClose c || isSingle c) = true
  · rw [if_pos h1] at h
    cases h
    exact ⟨rfl, by simp, .fixed _ (c10 c h1).1, nofix _ _ (c10 c h1).1 (by simp) (c10 c h1).2⟩
  rw [if_neg h1] at h
  by_cases h2 : isOpByte c = true
  · rw [if_pos h2] at h
    have hs := scanOp_spec c r h2
    cases h
    have hne : (scanOp c r).2.1 ≠ [] := by
      obtain ⟨_, _, q, e⟩ := hs
      rw [e]; simp
    have hn10 : (scanOp c r).2.1 ≠ [10] := by
      intro e
      obtain ⟨_, _, q, e'⟩ := hs
      rw [e] at e'
      injection e' with e1 _
      rw [← e1, o10] at h2
      cases h2
    exact ⟨hs.1, hne, .fixed _ hs.2.1, nofix _ _ hs.2.1 hne hn10⟩
  rw [if_neg h2] at h
  by_cases h3 : (isQuoteByte c || (c == c!"r" && (r.head? == some c!"\"" || r.head? == some c!"'"))) = true
  · rw [if_pos h3] at h
    cases hq : Scan.scanString (c :: r) with
    | none => rw [hq] at h; cases h
    | some tr =>
      rw [hq] at h
      obtain ⟨t, r'⟩ := tr
      dsimp only at h
      by_cases hu : (Quote.unquote t).err = true
      · rw [if_pos hu] at h; cases h
      · rw [if_neg hu] at h
        cases h
        obtain ⟨e, hne, raw, d, b, e2, hr, hd⟩ := scanString_split c r t r' hq
        exact ⟨e.symm, hne, .string _ raw d b rfl e2 hr hd, by dsimp only; decide⟩
  rw [if_neg h3] at h
  by_cases h4 : isIdent c = true
  · rw [if_pos h4] at h
    have hsp := scanIdent_split (isDigit c) r c
    have hby := scanIdent_bytes (isDigit c) r c
    cases h
    have hk := identKind_spec (c :: (scanIdent (isDigit c) c r).1)
    have hc10 : c ≠ 10 := by intro e; subst e; exact absurd h4 (by decide)
    refine ⟨by simp [hsp], by simp, ?_⟩
    rcases hk with hk | ⟨hk, c', s', e, hd⟩ | ⟨hk, hd⟩
    · exact ⟨.fixed _ hk, nofix _ _ hk (by simp) (fun e => hc10 (List.cons.inj e).1)⟩
    · cases e
      dsimp only
      rw [hk]
      refine ⟨.int _ c _ rfl rfl ((isDigit_iff c).1 hd) ?_, by decide⟩
      intro b hb
      exact (hby b hb).imp id (·.2)
    · have hnd := hd c _ rfl
      dsimp only
      rw [hk]
      refine ⟨.ident _ c _ rfl rfl (fun h => by rw [(isDigit_iff c).2 h] at hnd; cases hnd) ((isIdent_iff c).1 h4) ?_, by decide⟩
      intro b hb
      rcases hby b hb with h | h
      · exact h
      · rw [hnd] at h; cases h.1
  · rw [if_neg h4] at h; cases h

/-! ## One call of the lexer -/

attribute [local simp] K.unindent K.eof K.newline K.comment K.indent

/-- the work left in a state -/
def work (st : State) : Nat := 3 * st.rest.length + (if st.clean then 2 else 0) + st.indents.length

/-- The stack of block columns, innermost first: strictly decreasing, 0 at the bottom. -/
def Stack (l : List Nat) : Prop := l.Pairwise (· > ·) ∧ l.getLast? = some 0

theorem stack_push {l : List Nat} {n : Nat} (h : Stack l) (hn : n > l.headD 0) : Stack (n :: l) := by
  obtain ⟨h1, h2⟩ := h
  refine ⟨List.pairwise_cons.2 ⟨?_, h1⟩, ?_⟩
  · intro a ha
    cases l with
    | nil => cases ha
    | cons b l =>
      simp only [List.headD_cons] at hn
      rcases List.mem_cons.1 ha with rfl | ha
      · exact hn
      · exact Nat.lt_trans ((List.pairwise_cons.1 h1).1 a ha) hn
  · cases l with
    | nil => cases h2
    | cons b l => rw [List.getLast?_cons_cons]; exact h2

theorem stack_pop {l : List Nat} (h : Stack l) (hn : 0 < l.headD 0) : ∃ m, l = m :: l.drop 1 ∧ Stack (l.drop 1) := by
  obtain ⟨h1, h2⟩ := h
  cases l with
  | nil => exact absurd hn (Nat.lt_irrefl 0)
  | cons b l =>
    refine ⟨b, rfl, (List.pairwise_cons.1 h1).2, ?_⟩
    cases l with
    | nil =>
      simp at h2 hn
      omega
    | cons c l => rw [List.getLast?_cons_cons] at h2; exact h2

theorem stack_zero {l : List Nat} (h : Stack l) (hn : l.headD 0 = 0) : l = [0] := by
  obtain ⟨h1, h2⟩ := h
  cases l with
  | nil => cases h2
  | cons b l =>
    simp only [List.headD_cons] at hn
    subst hn
    cases l with
    | nil => rfl
    | cons c l => exact absurd ((List.pairwise_cons.1 h1).1 c (List.mem_cons_self ..)) (Nat.not_lt_zero _)

/-- What a call of the lexer does. -/
structure LexSpec (st : State) (t : Tok) (st' : State) : Prop where
  inv : Inv st'
  stack : Stack st'.indents
  tile : ∃ cs, List.Perm (saved st') (saved st ++ cs) ∧
    (t.kind = K.eof → Tiled st.done.reverse st.rest [t] cs ∧ st.indents = [0]) ∧
    (t.kind ≠ K.eof → ∀ ts cs', Tiled st'.done.reverse st'.rest ts cs' → Tiled st.done.reverse st.rest (t :: ts) (cs ++ cs'))
  depth : st'.depth = st.depth + depthChange t.kind
  zero : t.kind = K.newline ∨ t.kind = K.comment ∨ t.kind = K.indent → st.depth = 0
  zero' : t.kind = K.unindent → st.depth = 0 ∨ (st'.rest = [] ∧ st'.clean = false)
  push : t.kind = K.indent → st'.indents.length = st.indents.length + 1
  pop : t.kind = K.unindent → st'.indents.length + 1 = st.indents.length
  keep : t.kind ≠ K.indent → t.kind ≠ K.unindent → st'.indents = st.indents
  work : t.kind ≠ K.eof → work st' < work st

theorem tok_tile {st : State} {t : Tok} {s : Bytes} (h1 : st.rest = t.tok ++ s) (hp : t.pos = st.pos) (hi : Inv st) (hk : t.kind ≠ K.eof)
    (ht : TokText t) (ts : List Tok) (cs : List Comment) (h : Tiled (t.tok.reverse ++ st.done).reverse s ts cs) :
    Tiled st.done.reverse st.rest (t :: ts) cs := by
  rw [h1]
  refine Tiled.tok _ t s ts cs hk (by rw [hp]; exact hi) ht ?_
  simpa using h

theorem skips_work {st st1 : State} {cs : List Comment} (h : Skips st st1 cs) (hi : st1.indents = st.indents)
    (he : st1.rest.length = st.rest.length → st1 = st) : work st1 ≤ work st := by
  by_cases e : st1.rest.length = st.rest.length
  · rw [he e]; exact Nat.le_refl _
  · have := h.2.2.2
    unfold work
    rw [hi]
    split <;> split <;> omega

theorem lexTok_spec (st : State) (t : Tok) (st' : State) (hi : Inv st) (hs : Stack st.indents) (h : lexTok st = some (t, st')) :
    LexSpec st t st' ∧ t.kind ≠ K.newline ∧ t.kind ≠ K.comment ∧ t.kind ≠ K.indent := by
  unfold lexTok at h
  dsimp only at h
  cases hr : st.rest with
  | nil =>
    rw [hr] at h
    dsimp only at h
    by_cases hc : ({ st with clean := false, rest := [] } : State).currentIndent > 0
    · rw [if_pos hc] at h
      cases h
      obtain ⟨m, hm, hst⟩ := stack_pop hs hc
      refine ⟨⟨hi, hst, ⟨[], by simp [saved], by simp, fun _ ts cs' ht => ?_⟩, by simp [depthChange], by simp, fun _ => .inr ⟨rfl, rfl⟩, by simp, fun _ => ?_, by simp, fun _ => ?_⟩, by simp⟩
      · refine tok_tile (s := []) hr rfl hi (by simp) (.fixed _ (by dsimp only; decide)) ts _ ?_
        exact ht
      · show (st.indents.drop 1).length + 1 = _
        rw [hm]; simp
      · have : st.indents.length = (st.indents.drop 1).length + 1 := by rw [hm]; simp
        unfold work
        simp only [hr, Bool.false_eq_true, if_false, List.length_nil]
        rw [this]
        split <;> omega
    · rw [if_neg hc] at h
      cases h
      refine ⟨⟨hi, hs, ⟨[], by simp [saved], fun _ => ⟨?_, ?_⟩, by simp⟩, by simp [depthChange], by simp, by simp, by simp, by simp, fun _ _ => rfl, by simp⟩, by simp⟩
      · rw [hr]; exact Tiled.eof _ _ rfl rfl hi
      · exact stack_zero hs (Nat.eq_zero_of_not_pos hc)
  | cons c r =>
    rw [hr] at h
    dsimp only at h
    cases hsc : scanTok c r with
    | none => rw [hsc] at h; cases h
    | some s =>
      rw [hsc] at h
      dsimp only at h
      cases h
      obtain ⟨e, hne, htt, k1, k2, k3, k4, k5⟩ := scanTok_spec c r s hsc st.pos
      refine ⟨⟨?_, hs, ⟨[], by simp [saved, State.adv], fun h => absurd h k1, fun _ ts cs' ht => ?_⟩, rfl, ?_, fun h => absurd h k5, fun h => absurd h k4, fun h => absurd h k5, fun _ _ => rfl, fun _ => ?_⟩, k2, k3, k4⟩
      · exact inv_adv (st := { st with clean := false }) hi s.text s.rest
      · exact tok_tile (s := s.rest) (by rw [hr, ← e]) rfl hi k1 htt ts _ ht
      · rintro (h | h | h)
        · exact absurd h k2
        · exact absurd h k3
        · exact absurd h k4
      · have hl : s.text.length + s.rest.length = r.length + 1 := by
          have := congrArg List.length e
          simpa using this
        have hp : 0 < s.text.length := List.length_pos_iff.2 hne
        unfold work
        simp only [State.adv, hr, List.length_cons, Bool.false_eq_true, if_false]
        split <;> omega

theorem lex_spec (st : State) (t : Tok) (st' : State) (hi : Inv st) (hs : Stack st.indents) (h : lex st = some (t, st')) : LexSpec st t st' := by
  have hsk := skip_spec (st.rest.length + 1) st 0 hi (Nat.lt_succ_self _)
  unfold lex at h
  cases hk : skip (st.rest.length + 1) st 0 with
  | newline p st2 =>
    rw [hk] at h hsk
    obtain ⟨st1, cs, a, b, c, d, e, g, i⟩ := hsk
    cases h
    refine ⟨?_, by rw [i]; exact hs, ⟨cs, ?_, by simp, fun _ ts cs' ht => ?_⟩, by rw [e]; simp [depthChange], fun _ => g, by simp, by simp, by simp, fun _ _ => i, fun _ => ?_⟩
    · rw [d]; exact inv_adv (st := { st1 with indent := 0, clean := true }) a.2.1 _ _
    · rw [d]; exact a.2.2.1
    · refine a.1 (_ :: ts) cs' (tok_tile (s := st'.rest) ?_ c a.2.1 (by simp) (.fixed _ (by dsimp only; decide)) ts cs' ?_)
      · rw [b]; rfl
      · rw [d] at ht; exact ht
    · have := a.2.2.2
      rw [b] at this
      simp only [List.length_cons] at this
      unfold work
      rw [i]
      split <;> split <;> omega
  | comment p tx st2 =>
    rw [hk] at h hsk
    obtain ⟨st1, cs, r, a, b, c, d, e, g, i, j⟩ := hsk
    cases h
    have hd : (35 : UInt8) != 10 := by decide
    have htw : tx = 35 :: r.takeWhile (· != 10) := by rw [d, b, List.takeWhile_cons, if_pos hd]
    have hdr : st'.rest = st1.rest.dropWhile (· != 10) := by rw [e]; rfl
    refine ⟨?_, by rw [j]; exact hs, ⟨cs, ?_, by simp, fun _ ts cs' ht => ?_⟩, by rw [g]; simp [depthChange], fun _ => i, by simp, by simp, by simp, fun _ _ => j, fun _ => ?_⟩
    · rw [e]; exact inv_adv (st := { st1 with indent := 0, clean := true }) a.2.1 _ _
    · rw [e]; exact a.2.2.1
    · refine a.1 (_ :: ts) cs' (tok_tile (s := st'.rest) ?_ c a.2.1 (by simp) (.comment _ (r.takeWhile (· != 10)) rfl htw ?_) ts cs' ?_)
      · dsimp only; rw [hdr, d]; exact (List.takeWhile_append_dropWhile ..).symm
      · have := takeWhile_all_ne r
        intro hm
        have := List.all_eq_true.1 this 10 hm
        simp at this
      · rw [e] at ht; rw [hdr]; exact ht
    · have h1 := a.2.2.2
      have h2 : st1.rest.length = tx.length + st'.rest.length := by
        rw [hdr, d, ← List.length_append, List.takeWhile_append_dropWhile]
      rw [htw] at h2
      simp only [List.length_cons] at h2
      unfold work
      rw [j]
      split <;> split <;> omega
  | found st1 =>
    rw [hk] at h hsk
    obtain ⟨cs, a, b, c, d, _⟩ := hsk
    have hw := skips_work a c d
    have hs1 : Stack st1.indents := by rw [c]; exact hs
    have lift : ∀ t, LexSpec st1 t st' → LexSpec st t st' := by
      intro t ⟨l1, l2, ⟨cs2, l3, l4, l5⟩, l6, l7, l8, l9, l10, l11, l12⟩
      refine ⟨l1, l2, ⟨cs ++ cs2, ?_, fun h => ⟨a.1 _ _ (l4 h).1, c ▸ (l4 h).2⟩, fun h ts cs' ht => ?_⟩, by rw [l6, b], by rw [← b]; exact l7, by rw [← b]; exact l8,
        by rw [← c]; exact l9, by rw [← c]; exact l10, by rw [← c]; exact l11, fun h => Nat.lt_of_lt_of_le (l12 h) hw⟩
      · have := l3.trans (a.2.2.1.append_right cs2)
        simpa using this
      · have := a.1 _ _ (l5 h ts cs' ht)
        simpa using this
    dsimp only at h
    by_cases hz : (st1.depth = 0 && st1.clean) = true
    · rw [if_pos (by simpa using hz)] at h
      simp only [Bool.and_eq_true, decide_eq_true_eq] at hz
      by_cases h1 : st1.indent > st1.currentIndent
      · rw [if_pos h1] at h
        cases h
        refine lift _ ⟨a.2.1, stack_push hs1 h1, ⟨[], by simp [saved], by simp, fun _ ts cs' ht => ?_⟩, by simp [depthChange], fun _ => hz.1, by simp, fun _ => rfl, by simp, by simp, fun _ => ?_⟩
        · exact tok_tile (s := st1.rest) rfl rfl a.2.1 (by simp) (.fixed _ (by dsimp only; decide)) ts _ ht
        · unfold work
          simp [hz.2]
          omega
      · rw [if_neg h1] at h
        by_cases h2 : st1.indent < st1.currentIndent
        · rw [if_pos h2] at h
          obtain ⟨m, hm, hst⟩ := stack_pop hs1 (by unfold State.currentIndent at h2; omega)
          by_cases h3 : ({ st1 with indents := st1.indents.drop 1 } : State).indent > ({ st1 with indents := st1.indents.drop 1 } : State).currentIndent
          · rw [if_pos h3] at h; cases h
          · rw [if_neg h3] at h
            cases h
            have hl : st1.indents.length = (st1.indents.drop 1).length + 1 := by rw [hm]; simp
            refine lift _ ⟨a.2.1, hst, ⟨[], by simp [saved], by simp, fun _ ts cs' ht => ?_⟩, by simp [depthChange], by simp, fun _ => .inl hz.1, by simp, fun _ => hl.symm, by simp, fun _ => ?_⟩
            · exact tok_tile (s := st1.rest) rfl rfl a.2.1 (by simp) (.fixed _ (by dsimp only; decide)) ts _ ht
            · unfold work
              dsimp only
              rw [hl]
              omega
        · rw [if_neg h2] at h
          exact lift _ (lexTok_spec st1 t st' a.2.1 hs1 h).1
    · rw [if_neg (by simpa using hz)] at h
      exact lift _ (lexTok_spec st1 t st' a.2.1 hs1 h).1

/-! ## Whole files -/

/-- What lexing does from a state on. -/
structure AllSpec (st : State) (ts : List Tok) (st' : State) : Prop where
  tile : ∃ cs, List.Perm (saved st') (saved st ++ cs) ∧ Tiled st.done.reverse st.rest ts cs
  pref : ∀ a b, ts = a ++ b → countKind K.unindent a + 1 ≤ countKind K.indent a + st.indents.length
  total : countKind K.unindent ts + 1 = countKind K.indent ts + st.indents.length
  inside : ∀ a t b, ts = a ++ t :: b → t.kind = K.newline ∨ t.kind = K.comment ∨ t.kind = K.indent → st.depth + nesting a = 0
  out : ∀ a t b, ts = a ++ t :: b → t.kind = K.unindent → st.depth + nesting a = 0 ∨ ∀ u ∈ b, u.kind = K.unindent ∨ u.kind = K.eof

theorem countKind_cons (k : Kind) (t : Tok) (ts : List Tok) : countKind k (t :: ts) = countKind k ts + (if t.kind = k then 1 else 0) := by
  unfold countKind
  by_cases h : t.kind = k <;> simp [h]

theorem nesting_cons (t : Tok) (ts : List Tok) : nesting (t :: ts) = depthChange t.kind + nesting ts := by
  unfold nesting depthChange
  simp only [countKind_cons]
  by_cases h1 : t.kind = 91
  · simp [h1]; omega
  by_cases h2 : t.kind = 40
  · simp [h2]; omega
  by_cases h3 : t.kind = 123
  · simp [h3]; omega
  by_cases h4 : t.kind = 93
  · simp [h4]; omega
  by_cases h5 : t.kind = 41
  · simp [h5]; omega
  by_cases h6 : t.kind = 125
  · simp [h6]; omega
  simp [h1, h2, h3, h4, h5, h6]

/-- at the end of the text only block ends are left -/
theorem lexAll_end (f : Nat) : ∀ (st : State) (ts : List Tok) (st' : State), Inv st → Stack st.indents → st.rest = [] →
    lexAll f st = .ok ts st' → st.clean = false → ∀ u ∈ ts, u.kind = K.unindent ∨ u.kind = K.eof := by
  induction f with
  | zero => intro st ts st' _ _ _ h; cases h
  | succ f ih =>
    intro st ts st' hi hs hr h hcl u hu
    unfold lexAll at h
    cases hl : lex st with
    | none => rw [hl] at h; cases h
    | some p =>
      rw [hl] at h
      obtain ⟨t, st1⟩ := p
      have sp := lex_spec st t st1 hi hs hl
      have hk : (t.kind = K.unindent ∧ st1.rest = [] ∧ st1.clean = false) ∨ t.kind = K.eof := by
        unfold lex at hl
        have hsk : skip (st.rest.length + 1) st 0 = .found st := by unfold skip; rw [hr]
        rw [hsk] at hl
        dsimp only at hl
        rw [if_neg (by simp [hcl])] at hl
        unfold lexTok at hl
        dsimp only at hl
        rw [hr] at hl
        dsimp only at hl
        split at hl
        · cases hl; exact .inl ⟨rfl, rfl, rfl⟩
        · cases hl; exact .inr rfl
      dsimp only at h
      rcases hk with ⟨hk, hr1, hc1⟩ | hk
      · rw [if_neg (by rw [hk]; decide)] at h
        cases h2 : lexAll f st1 with
        | ok ts2 st2 =>
          rw [h2] at h
          cases h
          rcases List.mem_cons.1 hu with rfl | hu
          · exact .inl hk
          · exact ih st1 _ _ sp.inv sp.stack hr1 h2 hc1 u hu
        | error => rw [h2] at h; cases h
        | fuel => rw [h2] at h; cases h
      · rw [if_pos hk] at h
        cases h
        rcases List.mem_cons.1 hu with rfl | hu
        · exact .inr hk
        · cases hu

theorem lexAll_spec (f : Nat) : ∀ (st : State) (ts : List Tok) (st' : State), Inv st → Stack st.indents →
    lexAll f st = .ok ts st' → AllSpec st ts st' := by
  induction f with
  | zero => intro st ts st' _ _ h; cases h
  | succ f ih =>
    intro st ts st' hi hs h
    unfold lexAll at h
    cases hl : lex st with
    | none => rw [hl] at h; cases h
    | some p =>
      rw [hl] at h
      obtain ⟨t, st1⟩ := p
      have sp := lex_spec st t st1 hi hs hl
      dsimp only at h
      have hpos : 1 ≤ st.indents.length := by
        cases he : st.indents with
        | nil => rw [he] at hs; cases hs.2
        | cons _ _ => simp
      obtain ⟨cs, hp, he, hn⟩ := sp.tile
      by_cases hk : t.kind = K.eof
      · rw [if_pos hk] at h
        cases h
        obtain ⟨htl, hst⟩ := he hk
        refine ⟨⟨cs, hp, htl⟩, ?_, ?_, ?_, ?_⟩
        · intro a b hab
          have hc : countKind K.unindent a = 0 := by
            cases a with
            | nil => rfl
            | cons x a =>
              obtain ⟨rfl, hx⟩ := List.cons.inj hab
              obtain ⟨rfl, rfl⟩ := List.append_eq_nil_iff.1 hx.symm
              simp [countKind_cons, hk]; rfl
          rw [hc]; omega
        · rw [hst]; simp [countKind_cons, hk]; rfl
        · intro a t' b hab hk'
          cases a with
          | cons x a => have hx := (List.cons.inj hab).2; simp at hx
          | nil => cases hab; rw [hk] at hk'; exact absurd hk' (by decide)
        · intro a t' b hab hk'
          cases a with
          | cons x a => have hx := (List.cons.inj hab).2; simp at hx
          | nil => cases hab; rw [hk] at hk'; exact absurd hk' (by decide)
      · rw [if_neg hk] at h
        cases h2 : lexAll f st1 with
        | error => rw [h2] at h; cases h
        | fuel => rw [h2] at h; cases h
        | ok ts2 st2 =>
          rw [h2] at h
          cases h
          obtain ⟨⟨cs2, p2, t2⟩, i1, i2, i3, i4⟩ := ih st1 _ _ sp.inv sp.stack h2
          -- how the call changes the stack
          have hlen : st1.indents.length + (if t.kind = K.unindent then 1 else 0) = st.indents.length + (if t.kind = K.indent then 1 else 0) := by
            by_cases hu : t.kind = K.unindent
            · have := sp.pop hu
              rw [if_pos hu, if_neg (by rw [hu]; decide)]
              omega
            · by_cases hd : t.kind = K.indent
              · have := sp.push hd
                rw [if_neg hu, if_pos hd]
                omega
              · rw [if_neg hu, if_neg hd, sp.keep hd hu]
          refine ⟨⟨cs ++ cs2, ?_, hn hk _ _ t2⟩, ?_, ?_, ?_, ?_⟩
          · have := p2.trans (hp.append_right cs2)
            simpa using this
          · intro a b hab
            cases a with
            | nil => simpa [countKind] using hpos
            | cons x a =>
              cases hab
              have := i1 a b rfl
              rw [countKind_cons, countKind_cons]
              omega
          · rw [countKind_cons, countKind_cons]
            omega
          · intro a t' b hab hk'
            cases a with
            | nil =>
              cases hab
              have := sp.zero hk'
              rw [this]; rfl
            | cons x a =>
              cases hab
              have := i3 a t' b rfl hk'
              rw [sp.depth] at this
              rw [nesting_cons]
              omega
          · intro a t' b hab hk'
            cases a with
            | nil =>
              cases hab
              rcases sp.zero' hk' with h | h
              · left; rw [h]; rfl
              · exact .inr (lexAll_end f st1 _ _ sp.inv sp.stack h.1 h2 h.2)
            | cons x a =>
              cases hab
              rcases i4 a t' b rfl hk' with h | h
              · left
                rw [sp.depth] at h
                rw [nesting_cons]
                omega
              · exact .inr h

theorem lexAll_fuel (f : Nat) : ∀ st, Inv st → Stack st.indents → work st < f → lexAll f st ≠ .fuel := by
  induction f with
  | zero => intro st _ _ h; exact absurd h (Nat.not_lt_zero _)
  | succ f ih =>
    intro st hi hs hw h
    unfold lexAll at h
    cases hl : lex st with
    | none => rw [hl] at h; cases h
    | some p =>
      rw [hl] at h
      obtain ⟨t, st1⟩ := p
      have sp := lex_spec st t st1 hi hs hl
      dsimp only at h
      by_cases hk : t.kind = K.eof
      · rw [if_pos hk] at h; cases h
      · rw [if_neg hk] at h
        have := sp.work hk
        cases h2 : lexAll f st1 with
        | error => rw [h2] at h; cases h
        | ok _ _ => rw [h2] at h; cases h
        | fuel => exact ih st1 sp.inv sp.stack (by omega) h2

theorem inv_new (data : Bytes) : Inv (newInput data) := rfl
theorem stack_new (data : Bytes) : Stack (newInput data).indents := ⟨by simp [newInput], rfl⟩

/-- **C47** Lexing ends for every input. -/
theorem C47_terminates (data : Bytes) : tokens data ≠ .fuel := by
  unfold tokens
  exact lexAll_fuel _ _ (inv_new data) (stack_new data) (Nat.lt_succ_self _)

/-- **C47** Block starts and block ends are balanced: never more ends than starts, and as many at the end of the file. -/
theorem C47_balanced (data : Bytes) (ts : List Tok) (st : State) (h : tokens data = .ok ts st) :
    (∀ a b, ts = a ++ b → countKind K.unindent a ≤ countKind K.indent a) ∧ countKind K.unindent ts = countKind K.indent ts := by
  have sp := lexAll_spec _ _ _ _ (inv_new data) (stack_new data) h
  have h1 : (newInput data).indents.length = 1 := rfl
  refine ⟨fun a b hab => ?_, ?_⟩
  · have := sp.pref a b hab; omega
  · have := sp.total; omega

/-- **C47** Inside brackets there are no line ends, block starts or comment lines, and no block ends either, unless the file ends with
the brackets open. -/
theorem C47_brackets (data : Bytes) (ts : List Tok) (st : State) (h : tokens data = .ok ts st) (a : List Tok) (t : Tok) (b : List Tok)
    (hts : ts = a ++ t :: b) :
    (t.kind = K.newline ∨ t.kind = K.comment ∨ t.kind = K.indent → nesting a = 0) ∧
    (t.kind = K.unindent → nesting a = 0 ∨ ∀ u ∈ b, u.kind = K.unindent ∨ u.kind = K.eof) := by
  have sp := lexAll_spec _ _ _ _ (inv_new data) (stack_new data) h
  have hd : (newInput data).depth = 0 := rfl
  refine ⟨fun hk => ?_, fun hk => ?_⟩
  · have := sp.inside a t b hts hk; omega
  · rcases sp.out a t b hts hk with h | h
    · left; omega
    · exact .inr h

/-- **C48** The tokens of a file, with the comments that are not tokens, tile the file (with a line end added): every byte belongs to
exactly one token or comment or is a blank between them, and each carries its own position. -/
theorem C48_tiles (data : Bytes) (ts : List Tok) (st : State) (h : tokens data = .ok ts st) :
    ∃ cs, Tiled [] (data ++ [10]) ts cs ∧
      List.Perm (st.lineComments.filter (fun c => !c.token.isEmpty) ++ st.suffixComments) cs := by
  have sp := lexAll_spec _ _ _ _ (inv_new data) (stack_new data) h
  obtain ⟨cs, hp, ht⟩ := sp.tile
  exact ⟨cs, ht, hp⟩

/-- after a block start comes the first token of a line -/
theorem lex_indent (st : State) (t : Tok) (st' : State) (hi : Inv st) (h : lex st = some (t, st')) (hk : t.kind = K.indent) :
    Stop st'.rest ∧ st'.clean = false := by
  have hsk := skip_spec (st.rest.length + 1) st 0 hi (Nat.lt_succ_self _)
  unfold lex at h
  cases hq : skip (st.rest.length + 1) st 0 with
  | newline p st2 => rw [hq] at h; cases h; cases hk
  | comment p tx st2 => rw [hq] at h; cases h; cases hk
  | found st1 =>
    rw [hq] at h hsk
    obtain ⟨cs, a, b, c, d, e⟩ := hsk
    dsimp only at h
    have nolt : ∀ t st', lexTok st1 = some (t, st') → t.kind ≠ K.indent := by
      intro t st' h
      unfold lexTok at h
      dsimp only at h
      cases hr : st1.rest with
      | nil =>
        rw [hr] at h
        dsimp only at h
        split at h
        · cases h; (dsimp only; decide)
        · cases h; (dsimp only; decide)
      | cons c r =>
        rw [hr] at h
        dsimp only at h
        cases hsc : scanTok c r with
        | none => rw [hsc] at h; cases h
        | some s =>
          rw [hsc] at h
          cases h
          exact (scanTok_spec c r s hsc st1.pos).2.2.2.2.2.2.1
    split at h
    · split at h
      · cases h; exact ⟨e, rfl⟩
      · split at h
        · split at h
          · cases h
          · cases h; cases hk
        · exact absurd hk (nolt _ _ h)
    · exact absurd hk (nolt _ _ h)

theorem lex_stopped (st : State) (t : Tok) (st' : State) (hi : Inv st) (hs : Stack st.indents) (h : lex st = some (t, st')) (hst : Stop st.rest)
    (hc : st.clean = false) : t.kind ≠ K.newline ∧ t.kind ≠ K.comment ∧ t.kind ≠ K.indent := by
  unfold lex at h
  rw [skip_stop _ _ _ hst] at h
  dsimp only at h
  rw [if_neg (by simp [hc])] at h
  exact (lexTok_spec st t st' hi hs h).2

theorem lexAll_indent (f : Nat) : ∀ (st : State) (ts : List Tok) (st' : State), Inv st → Stack st.indents → lexAll f st = .ok ts st' →
    (∀ a t u b, ts = a ++ t :: u :: b → t.kind = K.indent → u.kind ≠ K.newline ∧ u.kind ≠ K.comment) ∧
    (Stop st.rest → st.clean = false → ∀ u b, ts = u :: b → u.kind ≠ K.newline ∧ u.kind ≠ K.comment) := by
  induction f with
  | zero => intro st ts st' _ _ h; cases h
  | succ f ih =>
    intro st ts st' hi hs h
    unfold lexAll at h
    cases hl : lex st with
    | none => rw [hl] at h; cases h
    | some p =>
      rw [hl] at h
      obtain ⟨t, st1⟩ := p
      have sp := lex_spec st t st1 hi hs hl
      dsimp only at h
      by_cases hk : t.kind = K.eof
      · rw [if_pos hk] at h
        cases h
        refine ⟨fun a t' u b hab _ => ?_, fun _ _ u b hub => ?_⟩
        · have := congrArg List.length hab; simp at this; omega
        · cases hub; rw [hk]; exact ⟨by decide, by decide⟩
      · rw [if_neg hk] at h
        cases h2 : lexAll f st1 with
        | error => rw [h2] at h; cases h
        | fuel => rw [h2] at h; cases h
        | ok ts2 st2 =>
          rw [h2] at h
          cases h
          have hr := ih st1 _ _ sp.inv sp.stack h2
          refine ⟨fun a t' u b hab hk' => ?_, fun h1 h3 u b hub => ?_⟩
          · cases a with
            | nil =>
              obtain ⟨rfl, e⟩ := List.cons.inj hab
              obtain ⟨g1, g2⟩ := lex_indent st t st1 hi hl hk'
              exact hr.2 g1 g2 u b e
            | cons x a => exact hr.1 a t' u b (List.cons.inj hab).2 hk'
          · cases hub
            have := lex_stopped st t st1 hi hs hl h1 h3
            exact ⟨this.1, this.2.1⟩

/-- **C47** A block start is followed by the first token of a statement, never by a line end or a comment. -/
theorem C47_block_start (data : Bytes) (ts : List Tok) (st : State) (h : tokens data = .ok ts st) (a : List Tok) (t u : Tok) (b : List Tok)
    (hts : ts = a ++ t :: u :: b) (hk : t.kind = K.indent) : u.kind ≠ K.newline ∧ u.kind ≠ K.comment :=
  (lexAll_indent _ _ _ _ (inv_new data) (stack_new data) h).1 a t u b hts hk

/-! ## Concrete cases -/

/-- the kinds of the tokens, and the numbers of saved comments -/
def summary : Result → Option (List Kind × List Bytes × List Bytes)
  | .ok ts st => some (ts.map (·.kind), st.lineComments.map (·.token), st.suffixComments.map (·.token))
  | _ => none

example : summary (tokens b!"def f(a):\n  # c\n  return (a +  # d\n  \n\n # e\n 1)\nx = \"\" \\\n  + r'b' # g\n") =
    some ([K.def_, K.ident, 40, K.ident, 41, 58, 10, K.comment, 10, K.indent, K.return_, 40, K.ident, 43, K.int, 41, 10, K.unindent, K.ident, 61,
      K.string, 43, K.string, 10, 10, K.eof], [b!"", b!"# e"], [b!"# d", b!"# g"]) := by decide +kernel

/-- blocks that end together -/
example : summary (tokens b!"if a:\n  if b:\n    c") =
    some ([K.if_, K.ident, 58, 10, K.indent, K.if_, K.ident, 58, 10, K.indent, K.ident, 10, K.unindent, K.unindent, K.eof], [], []) := by decide +kernel

/-- brackets that never close: the block ends come inside them -/
example : summary (tokens b!"if a:\n  (b\n") =
    some ([K.if_, K.ident, 58, 10, K.indent, 40, K.ident, K.unindent, K.eof], [], []) := by decide +kernel

/-- an unknown column and an unknown character are errors -/
example : summary (tokens b!"if a:\n    b\n  c") = none := by decide +kernel
example : summary (tokens b!"a $ b") = none := by decide +kernel

end Verif.Props.Lexer
