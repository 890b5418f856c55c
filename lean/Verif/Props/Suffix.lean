import Verif.Props.Lexer
/-
C94: which comments are beside code.
-/
namespace Verif.Props.Suffix
open Verif Verif.Syntax Verif.Lexer Verif.Props.Lexer

/-! ### Specification -/

/-- white space (ASCII) -/
def White (w : UInt8) : Prop := w = 32 ∨ (9 ≤ w ∧ w ≤ 13)

/-- the part of the line of byte `n` that comes before this byte -/
def lineUpTo (data : Bytes) (n : Nat) : Bytes := ((data.take n).reverse.takeWhile (· != 10)).reverse

/-- A comment after this text is beside code: there is something on the line, the last thing is not an opening bracket, and the line is not `):`. -/
def Beside (line : Bytes) : Prop :=
  ∃ a x b, line = a ++ x :: b ∧ (∀ w ∈ b, White w) ∧ ¬ White x ∧ x ∉ b!"([{" ∧
    ¬ (x = c!":" ∧ ∃ w1 w2, a = w1 ++ c!")" :: w2 ∧ (∀ w ∈ w1, White w) ∧ ∀ w ∈ w2, w = 32)

/-! ### The test on a line -/

theorem white_iff (w : UInt8) : Buildozer.isSpaceByte w = true ↔ White w := by
  unfold Buildozer.isSpaceByte White
  simp

theorem dropWhile_all {p : UInt8 → Bool} : ∀ (b l : Bytes), (∀ w ∈ b, p w = true) → (b ++ l).dropWhile p = l.dropWhile p
  | [], _, _ => rfl
  | w :: b, l, h => by
    rw [List.cons_append, List.dropWhile_cons, if_pos (h w (by simp)), dropWhile_all b l fun v hv => h v (by simp [hv])]

theorem dropWhile_keep {p : UInt8 → Bool} (x : UInt8) (b : Bytes) (hx : p x = false) : ∀ a : Bytes, (a ++ x :: b).dropWhile p = a.dropWhile p ++ x :: b
  | [] => by simp [hx]
  | w :: a => by
    rw [List.cons_append, List.dropWhile_cons, List.dropWhile_cons]
    split
    · exact dropWhile_keep x b hx a
    · rfl

theorem trim_split (a b : Bytes) (x : UInt8) (hb : ∀ w ∈ b, White w) (hx : ¬ White x) :
    Buildozer.trimSpace (a ++ x :: b) = a.dropWhile Buildozer.isSpaceByte ++ [x] := by
  have hx' : Buildozer.isSpaceByte x = false := by
    rw [Bool.eq_false_iff]; exact fun h => hx ((white_iff x).1 h)
  unfold Buildozer.trimSpace
  rw [dropWhile_keep x b hx', List.reverse_append, List.reverse_cons, List.append_assoc,
    dropWhile_all _ _ fun w hw => (white_iff w).2 (hb w (by simpa using hw))]
  simp [hx']

theorem trim_white (l : Bytes) (h : ∀ w ∈ l, White w) : Buildozer.trimSpace l = [] := by
  unfold Buildozer.trimSpace
  have : l.dropWhile Buildozer.isSpaceByte = [] := by
    have := dropWhile_all l [] fun w hw => (white_iff w).2 (h w hw)
    simpa using this
  rw [this]
  rfl

theorem last_split : ∀ l : Bytes, (∀ w ∈ l, White w) ∨ ∃ a x b, l = a ++ x :: b ∧ (∀ w ∈ b, White w) ∧ ¬ White x
  | [] => .inl (by simp)
  | w :: l => by
    rcases last_split l with h | ⟨a, x, b, h1, h2, h3⟩
    · by_cases hw : White w
      · exact .inl (by simpa using ⟨hw, h⟩)
      · exact .inr ⟨[], w, l, rfl, h, hw⟩
    · exact .inr ⟨w :: a, x, b, by rw [h1]; rfl, h2, h3⟩

theorem split_unique {a a' b b' : Bytes} {x x' : UInt8} (h : a ++ x :: b = a' ++ x' :: b') (hb : ∀ w ∈ b, White w) (hx : ¬ White x)
    (hb' : ∀ w ∈ b', White w) (hx' : ¬ White x') : a = a' ∧ x = x' ∧ b = b' := by
  have h1 := trim_split a b x hb hx
  rw [h, trim_split a' b' x' hb' hx'] at h1
  induction a generalizing a' with
  | nil =>
    cases a' with
    | nil => simp at h; exact ⟨rfl, h.1, h.2⟩
    | cons w a' =>
      simp at h
      exact absurd (hb x' (by rw [h.2]; simp)) hx'
  | cons w a ih =>
    cases a' with
    | nil =>
      simp at h
      exact absurd (hb' x (by rw [← h.2]; simp)) hx
    | cons w' a' =>
      simp at h
      obtain ⟨rfl, h⟩ := h
      have h2 := trim_split a b x hb hx
      rw [h, trim_split a' b' x' hb' hx'] at h2
      obtain ⟨rfl, rfl, rfl⟩ := ih h h2
      exact ⟨rfl, rfl, rfl⟩

theorem filter_one (l : Bytes) (y : UInt8) (hy : y ≠ 32) : l.filter (· != 32) = [y] ↔ ∃ w1 w2, l = w1 ++ y :: w2 ∧ (∀ w ∈ w1, w = 32) ∧ ∀ w ∈ w2, w = 32 := by
  have hnone : ∀ l : Bytes, l.filter (· != 32) = [] ↔ ∀ w ∈ l, w = 32 := by
    intro l; rw [List.filter_eq_nil_iff]; simp
  induction l with
  | nil => simp
  | cons w l ih =>
    rw [List.filter_cons]
    split
    · rename_i hw
      constructor
      · intro h
        simp at h
        exact ⟨[], l, by rw [h.1]; rfl, by simp, by simpa using h.2⟩
      · rintro ⟨w1, w2, h1, h2, h3⟩
        cases w1 with
        | nil =>
          simp at h1
          rw [h1.1, h1.2, (hnone w2).2 h3]
        | cons v w1 =>
          simp at h1
          exact absurd (h1.1.trans (h2 v (by simp))) (by simpa using hw)
    · rename_i hw
      have hw : w = 32 := by simpa using hw
      refine ih.trans ?_
      constructor
      · rintro ⟨w1, w2, h1, h2, h3⟩
        exact ⟨w :: w1, w2, by rw [h1]; rfl, by simpa [hw] using h2, h3⟩
      · rintro ⟨w1, w2, h1, h2, h3⟩
        cases w1 with
        | nil => simp at h1; exact absurd (h1.1.symm.trans hw) hy
        | cons v w1 =>
          simp at h1
          exact ⟨w1, w2, h1.2, fun u hu => h2 u (by simp [hu]), h3⟩

theorem drop_paren (a : Bytes) : (a.dropWhile Buildozer.isSpaceByte).filter (· != 32) = b!")" ↔
    ∃ w1 w2, a = w1 ++ c!")" :: w2 ∧ (∀ w ∈ w1, White w) ∧ ∀ w ∈ w2, w = 32 := by
  rw [filter_one _ _ (by decide)]
  constructor
  · rintro ⟨w1, w2, h1, h2, h3⟩
    refine ⟨a.takeWhile Buildozer.isSpaceByte ++ w1, w2, ?_, ?_, h3⟩
    · rw [List.append_assoc, ← h1, List.takeWhile_append_dropWhile]
    · intro w hw
      rcases List.mem_append.1 hw with hw | hw
      · exact (white_iff w).1 (List.all_eq_true.1 List.all_takeWhile w hw)
      · exact .inl (h2 w hw)
  · rintro ⟨w1, w2, h1, h2, h3⟩
    refine ⟨[], w2, ?_, by simp, h3⟩
    rw [h1, dropWhile_all _ _ fun w hw => (white_iff w).2 (h2 w hw)]
    rfl

theorem suffix_iff (line : Bytes) : isSuffixComment line.reverse = true ↔ Beside line := by
  unfold isSuffixComment
  rw [List.reverse_reverse]
  rcases last_split line with h | ⟨a, x, b, rfl, hb, hx⟩
  · rw [trim_white _ h]
    refine ⟨fun h' => by simp at h', ?_⟩
    rintro ⟨a, x, b, rfl, _, hx, _⟩
    exact absurd (h x (by simp)) hx
  · have hx32 : x ≠ 32 := fun h => hx (.inl h)
    rw [trim_split a b x hb hx]
    have hf : (a.dropWhile Buildozer.isSpaceByte ++ [x]).filter (· != 32) = (a.dropWhile Buildozer.isSpaceByte).filter (· != 32) ++ [x] := by
      rw [List.filter_append]
      simp [hx32]
    rw [hf]
    have hp : (a.dropWhile Buildozer.isSpaceByte).filter (· != 32) ++ [x] = b!"):" ↔
        x = c!":" ∧ ∃ w1 w2, a = w1 ++ c!")" :: w2 ∧ (∀ w ∈ w1, White w) ∧ ∀ w ∈ w2, w = 32 := by
      rw [← drop_paren]
      generalize (a.dropWhile Buildozer.isSpaceByte).filter (· != 32) = q
      constructor
      · intro h
        have := List.append_inj' (show q ++ [x] = b!")" ++ b!":" from h) rfl
        exact ⟨by simpa using this.2, this.1⟩
      · rintro ⟨rfl, rfl⟩
        rfl
    constructor
    · intro h
      simp only [Bool.not_eq_true', Bool.or_eq_false_iff, List.getLast?_append, beq_eq_false_iff_ne] at h
      obtain ⟨⟨⟨⟨_, h2⟩, h3⟩, h4⟩, h5⟩ := h
      refine ⟨a, x, b, rfl, hb, hx, ?_, fun h => h2 (hp.2 h)⟩
      simp at h3 h4 h5 ⊢
      exact ⟨h4, h3, h5⟩
    · rintro ⟨a', x', b', he, hb', hx', hm, hn⟩
      obtain ⟨rfl, rfl, rfl⟩ := split_unique he hb hx hb' hx'
      simp only [Bool.not_eq_true', Bool.or_eq_false_iff, List.getLast?_append, beq_eq_false_iff_ne]
      simp at hm
      refine ⟨⟨⟨⟨by simp, fun h => hn (hp.1 h)⟩, ?_⟩, ?_⟩, ?_⟩ <;> simp [hm]

/-! ### Through the lexer -/

/-- what the lexer knows about the comments it has saved, and about the line it is on -/
structure Sorted (all : Bytes) (st : State) : Prop where
  text : st.done.reverse ++ st.rest = all
  inv : Props.Lexer.Inv st
  suff : ∀ c ∈ st.suffixComments, Beside (lineUpTo all c.start.byte)
  line : ∀ c ∈ st.lineComments, c.token ≠ [] → ¬ Beside (lineUpTo all c.start.byte)
  clean : st.clean = true → (∀ w ∈ st.done.takeWhile (· != 10), White w) ∨ st.rest = [] ∨ st.rest.head? = some 10

theorem lineUpTo_here {all : Bytes} {st : State} (h : st.done.reverse ++ st.rest = all) (hi : Props.Lexer.Inv st) :
    lineUpTo all st.pos.byte = (st.done.takeWhile (· != 10)).reverse := by
  have : st.pos.byte = st.done.reverse.length := by rw [hi]; rfl
  unfold lineUpTo
  rw [this, ← h, List.take_left, List.reverse_reverse]

theorem sorted_adv {all : Bytes} {st st' : State} {t r : Bytes} (h : Sorted all st) (hr : st.rest = t ++ r) (h1 : st'.done = t.reverse ++ st.done)
    (h2 : st'.rest = r) (h3 : st'.pos = t.foldl advPos st.pos) (h4 : st'.lineComments = st.lineComments) (h5 : st'.suffixComments = st.suffixComments)
    (h6 : st'.clean = true → (∀ w ∈ st'.done.takeWhile (· != 10), White w) ∨ st'.rest = [] ∨ st'.rest.head? = some 10) : Sorted all st' where
  text := by rw [h1, h2, ← h.text, hr]; simp
  inv := by
    unfold Props.Lexer.Inv
    rw [h3, h1, List.reverse_append, List.reverse_reverse, posAt_append, ← h.inv]
  suff := by rw [h5]; exact h.suff
  line := by rw [h4]; exact h.line
  clean := h6

def SortedSkip (all : Bytes) : Skip → Prop
  | .found st' => Sorted all st'
  | .newline _ st' => Sorted all st'
  | .comment p _ st' => Sorted all st' ∧ ∀ w ∈ lineUpTo all p.byte, White w

/-- the loop that skips blanks and comments -/
theorem skip_sorted (all : Bytes) : ∀ (f : Nat) (st : State) (nl : Nat), Sorted all st → SortedSkip all (skip f st nl)
  | 0, st, _, h => h
  | f + 1, st, nl, h => by
    unfold skip
    cases hr : st.rest with
    | nil => exact h
    | cons c r =>
      dsimp only
      split
      · rename_i hc
        subst hc
        have hs : Sorted all (({ st with indent := 0, clean := true }).adv [10] r) :=
          sorted_adv (t := [10]) h (by rw [hr]; rfl) rfl rfl rfl rfl rfl (fun _ => .inl (by simp [State.adv]))
        split
        · exact hs
        · exact skip_sorted all f _ _ hs
      · split
        · rename_i _ hc
          subst hc
          refine skip_sorted all f _ _ (sorted_adv (t := [32]) h (by rw [hr]; rfl) ?_ rfl ?_ ?_ ?_ ?_)
          · split <;> rfl
          · split <;> rfl
          · split <;> rfl
          · split <;> rfl
          · intro hcl
            have hcl : st.clean = true := by
              revert hcl; split
              · exact fun _ => by assumption
              · exact id
            rcases h.clean hcl with hw | hw | hw
            · refine .inl ?_
              have hd : ((if st.clean = true then { st with rest := 32 :: r, indent := st.indent + 1 } else st).adv [32] r).done = 32 :: st.done := by split <;> rfl
              rw [hd]
              intro w hm
              simp at hm
              rcases hm with rfl | hm
              · exact .inl rfl
              · exact hw w (by simpa using hm)
            · rw [hr] at hw; cases hw
            · rw [hr] at hw; simp at hw
        · split
          · rename_i hc
            have hne : c ≠ 10 := by rintro rfl; revert hc; decide
            have hcw : White c := by simp at hc; rcases hc with rfl | rfl <;> exact .inr (by decide)
            refine skip_sorted all f _ _ (sorted_adv (t := [c]) h (by rw [hr]; rfl) rfl rfl rfl rfl rfl ?_)
            intro hcl
            rcases h.clean hcl with hw | hw | hw
            · refine .inl ?_
              intro w hm
              simp [State.adv, hne] at hm
              rcases hm with rfl | hm
              · exact hcw
              · exact hw w (by simpa using hm)
            · rw [hr] at hw; cases hw
            · rw [hr] at hw; simp at hw; exact absurd hw hne
          · split
            · rename_i hc
              subst hc
              have hsplit : st.rest = st.rest.takeWhile (· != 10) ++ st.rest.dropWhile (· != 10) := List.takeWhile_append_dropWhile.symm
              have hend : st.rest.dropWhile (· != 10) = [] ∨ (st.rest.dropWhile (· != 10)).head? = some 10 := (dropWhile_head _).symm
              rw [← hr]
              have key : ∀ st' : State, st'.done = (st.rest.takeWhile (· != 10)).reverse ++ st.done → st'.rest = st.rest.dropWhile (· != 10) →
                  st'.pos = (st.rest.takeWhile (· != 10)).foldl advPos st.pos →
                  (∀ c ∈ st'.suffixComments, Beside (lineUpTo all c.start.byte)) →
                  (∀ c ∈ st'.lineComments, c.token ≠ [] → ¬ Beside (lineUpTo all c.start.byte)) → Sorted all st' := by
                intro st' h1 h2 h3 h4 h5
                refine ⟨by rw [h1, h2, ← h.text]; simp, ?_, h4, h5, fun _ => .inr (by rw [h2]; exact hend)⟩
                unfold Props.Lexer.Inv
                rw [h3, h1, List.reverse_append, List.reverse_reverse, posAt_append, ← h.inv]
              have hlc : ∀ c ∈ (if nl > 1 then st.lineComments ++ [⟨st.pos, []⟩] else st.lineComments), c.token ≠ [] → ¬ Beside (lineUpTo all c.start.byte) := by
                intro c hc
                split at hc
                · rcases List.mem_append.1 hc with hc | hc
                  · exact h.line c hc
                  · simp at hc; subst hc; exact fun h => absurd rfl h
                · exact h.line c hc
              split
              · rename_i hcm
                simp at hcm
                refine ⟨key _ rfl rfl rfl h.suff h.line, ?_⟩
                rw [lineUpTo_here h.text h.inv]
                rcases h.clean hcm.2 with hw | hw | hw
                · intro w hm; exact hw w (by simpa using hm)
                · rw [hr] at hw; cases hw
                · rw [hr] at hw; simp at hw
              · split
                · rename_i hsf
                  refine skip_sorted all f _ _ (key _ rfl rfl rfl ?_ hlc)
                  intro c hc
                  rcases List.mem_append.1 hc with hc | hc
                  · exact h.suff c hc
                  · simp at hc
                    subst hc
                    rw [lineUpTo_here h.text h.inv, ← suffix_iff, List.reverse_reverse]
                    exact hsf
                · rename_i hsf
                  refine skip_sorted all f _ _ (key _ rfl rfl rfl h.suff ?_)
                  intro c hc
                  rcases List.mem_append.1 hc with hc | hc
                  · exact hlc c hc
                  · simp at hc
                    subst hc
                    rw [lineUpTo_here h.text h.inv, ← suffix_iff, List.reverse_reverse]
                    exact fun _ => hsf
            · split
              · rename_i hc
                simp at hc
                obtain ⟨hc1, hc2⟩ := hc
                cases r with
                | nil => cases hc2
                | cons d r =>
                  simp at hc2
                  subst hc1 hc2
                  exact skip_sorted all f _ _ (sorted_adv (t := [92, 10]) h (by rw [hr]; rfl) rfl rfl rfl rfl rfl (fun _ => .inl (by simp [State.adv])))
              · exact h

theorem lexTok_sorted (all : Bytes) (st : State) (t : Tok) (st' : State) (h : Sorted all st) (hl : lexTok st = some (t, st')) : Sorted all st' := by
  unfold lexTok at hl
  dsimp only at hl
  split at hl
  · split at hl <;> cases hl <;> exact ⟨h.text, h.inv, h.suff, h.line, fun h => by cases h⟩
  · rename_i c r hr
    cases hs : scanTok c r with
    | none => rw [hs] at hl; cases hl
    | some s =>
      rw [hs] at hl
      cases hl
      have := (scanTok_spec c r s hs {}).1
      exact sorted_adv (t := s.text) (r := s.rest) h (by rw [this]; exact hr) rfl rfl rfl rfl rfl (fun h => by cases h)

theorem lexTok_kind (st : State) (t : Tok) (st' : State) (hl : lexTok st = some (t, st')) : t.kind ≠ K.comment := by
  unfold lexTok at hl
  dsimp only at hl
  split at hl
  · split at hl <;> cases hl <;> simp [K.unindent, K.eof, K.comment]
  · rename_i c r hr
    cases hs : scanTok c r with
    | none => rw [hs] at hl; cases hl
    | some s =>
      rw [hs] at hl
      cases hl
      exact ((scanTok_spec c r s hs {}).2.2.2).2.2.1

theorem lex_sorted (all : Bytes) (st : State) (t : Tok) (st' : State) (h : Sorted all st) (hl : lex st = some (t, st')) :
    Sorted all st' ∧ (t.kind = K.comment → ∀ w ∈ lineUpTo all t.pos.byte, White w) := by
  have hk := skip_sorted all (st.rest.length + 1) st 0 h
  unfold lex at hl
  cases hq : skip (st.rest.length + 1) st 0 with
  | newline p st1 =>
    rw [hq] at hk hl
    cases hl
    exact ⟨hk, fun h => absurd h (by simp [K.newline, K.indent, K.unindent, K.comment])⟩
  | comment p tx st1 =>
    rw [hq] at hk hl
    cases hl
    exact ⟨hk.1, fun _ => hk.2⟩
  | found st1 =>
    rw [hq] at hk hl
    have hk : Sorted all st1 := hk
    dsimp only at hl
    have htok : ∀ {st2}, lexTok st1 = some (t, st2) → Sorted all st2 ∧ (t.kind = K.comment → ∀ w ∈ lineUpTo all t.pos.byte, White w) :=
      fun hl => ⟨lexTok_sorted all _ _ _ hk hl, fun h => absurd h (lexTok_kind _ _ _ hl)⟩
    split at hl
    · split at hl
      · cases hl
        exact ⟨⟨hk.text, hk.inv, hk.suff, hk.line, fun h => by cases h⟩, fun h => absurd h (by simp [K.newline, K.indent, K.unindent, K.comment])⟩
      · split at hl
        · split at hl
          · cases hl
          · cases hl
            exact ⟨⟨hk.text, hk.inv, hk.suff, hk.line, hk.clean⟩, fun h => absurd h (by simp [K.newline, K.indent, K.unindent, K.comment])⟩
        · exact htok hl
    · exact htok hl

theorem lexAll_sorted (all : Bytes) : ∀ (f : Nat) (st : State) (ts : List Tok) (st' : State), Sorted all st → lexAll f st = .ok ts st' →
    Sorted all st' ∧ ∀ t ∈ ts, t.kind = K.comment → ∀ w ∈ lineUpTo all t.pos.byte, White w
  | 0, _, _, _, _, hl => by cases hl
  | f + 1, st, ts, st', h, hl => by
    unfold lexAll at hl
    cases hx : lex st with
    | none => rw [hx] at hl; cases hl
    | some q =>
      obtain ⟨t, st1⟩ := q
      rw [hx] at hl
      dsimp only at hl
      have hs := lex_sorted all st t st1 h hx
      split at hl
      · cases hl
        refine ⟨hs.1, fun u hu => ?_⟩
        simp at hu
        subst hu
        exact hs.2
      · cases hq : lexAll f st1 with
        | ok ts2 st2 =>
          rw [hq] at hl
          cases hl
          have ih := lexAll_sorted all f st1 ts2 _ hs.1 hq
          refine ⟨ih.1, fun u hu => ?_⟩
          rcases List.mem_cons.1 hu with rfl | hu
          · exact hs.2
          · exact ih.2 u hu
        | error => rw [hq] at hl; cases hl
        | fuel => rw [hq] at hl; cases hl

/-- **C94**: the comments of a file that are kept beside code (at the end of the line) are exactly those that stand after something on their line, except
after an opening bracket and after a line `):`; of the others, the ones that are statements of their own stand alone on their line. -/
theorem C94_suffix (data : Bytes) (ts : List Tok) (st : State) (h : tokens data = .ok ts st) :
    (∀ c ∈ st.suffixComments, Beside (lineUpTo (data ++ [10]) c.start.byte)) ∧
    (∀ c ∈ st.lineComments, c.token ≠ [] → ¬ Beside (lineUpTo (data ++ [10]) c.start.byte)) ∧
    (∀ t ∈ ts, t.kind = K.comment → ∀ w ∈ lineUpTo (data ++ [10]) t.pos.byte, White w) := by
  have h0 : Sorted (data ++ [10]) (newInput data) :=
    ⟨rfl, inv_new data, fun c hc => by simp [newInput] at hc, fun c hc => by simp [newInput] at hc, fun _ => .inl (by simp [newInput])⟩
  have := lexAll_sorted _ _ _ _ _ h0 h
  exact ⟨this.1.suff, this.1.line, this.2⟩

/-- A case: `a` and `b` are beside code, `c` (after a bracket), `d` (after `):`) and `e` are not, and `f` is a statement. -/
theorem C94_example : summary (tokens b!"x = 1 # a\ny = [ # c\n 1, # b\n # e\n]\ndef f(\n ): # d\n pass\n# f\n") =
    some ([K.ident, 61, K.int, 10, K.ident, 61, 91, K.int, 44, 93, 10, K.def_, K.ident, 40, 41, 58, 10, K.indent, K.pass, 10, K.comment, 10, 10, K.unindent, K.eof],
      [b!"# c", b!"# e", b!"# d"], [b!"# a", b!"# b"]) := by decide +kernel

end Verif.Props.Suffix
