import Verif.Proofs.PrintC
import Verif.Proofs.GenC
/-
Printed statements with comments can be read back.
-/
namespace Verif.Round
open Verif Verif.Syntax Verif.Lexer Verif.Print Verif.Parser Verif.Grammar Verif.Props.Grammar

/-! ## The text of a comment -/

theorem dropWhile_end {p : UInt8 → Bool} {a : UInt8} {l : Bytes} (ha : p a = false) : ∃ r, (l ++ [a]).dropWhile p = r ++ [a] := by
  induction l with
  | nil => exact ⟨[], by simp [ha]⟩
  | cons x l ih =>
    obtain ⟨r, hr⟩ := ih
    cases hx : p x with
    | true => exact ⟨r, by rw [List.cons_append, List.dropWhile_cons_of_pos hx, hr]⟩
    | false => exact ⟨x :: l, by rw [List.cons_append, List.dropWhile_cons_of_neg (by simp [hx])]⟩

theorem dropWhile_head {p : UInt8 → Bool} : ∀ (l : Bytes), l.dropWhile p = [] ∨ ∃ x r, l.dropWhile p = x :: r ∧ p x = false := by
  intro l
  induction l with
  | nil => exact .inl rfl
  | cons x l ih =>
    cases hx : p x with
    | true => rw [List.dropWhile_cons_of_pos hx]; exact ih
    | false => exact .inr ⟨x, l, List.dropWhile_cons_of_neg (by simp [hx]), hx⟩

theorem dropWhile_mem {p : UInt8 → Bool} {b : UInt8} : ∀ {l : Bytes}, b ∈ l.dropWhile p → b ∈ l := by
  intro l h
  exact (List.dropWhile_suffix p).mem h

theorem comText_ok {c : Comment} (h : ComOK c) : ComText (comText c) ∧ EndOK (comText c) := by
  obtain ⟨r, hr, hn⟩ := h
  have h0 : comText c = (((35 : UInt8) :: r).reverse.dropWhile Buildozer.isSpaceByte).reverse := by
    unfold comText Buildozer.trimSpace
    rw [hr]
    rfl
  rw [List.reverse_cons] at h0
  obtain ⟨u, hu⟩ := dropWhile_end (p := Buildozer.isSpaceByte) (a := 35) (l := r.reverse) (by decide)
  rw [hu, List.reverse_append] at h0
  have hm : ∀ b ∈ u, b ∈ r ∨ b = 35 := by
    intro b hb
    have := dropWhile_mem (p := Buildozer.isSpaceByte) (l := r.reverse ++ [35]) (b := b) (by rw [hu]; simp [hb])
    simpa using this
  refine ⟨⟨u.reverse, h0, fun h => ?_⟩, ?_⟩
  · rcases hm 10 (by simpa using h) with h | h
    · exact hn h
    · exact absurd h (by decide)
  · rcases dropWhile_head (p := Buildozer.isSpaceByte) (r.reverse ++ [35]) with h | ⟨x, v, h, hx⟩
    · rw [hu] at h; simp at h
    · refine ⟨v.reverse, x, ?_, ?_⟩
      · rw [h0]
        have : (u ++ [35]).reverse = (x :: v).reverse := by rw [← hu, h]
        simpa using this
      · rintro rfl
        exact absurd hx (by decide)

/-! ## Line ends with comments -/

/-- comments on lines of their own, after a line end -/
def comLines (k : Nat) : List Comment → Bytes
  | [] => [10]
  | c :: l => 10 :: (spaces k ++ (comText c ++ comLines k l))

/-- the end of a line with comments -/
def nlText (k : Nat) : List Comment → Bytes
  | [] => [10]
  | c :: l => 32 :: 32 :: (comText c ++ comLines k l)

theorem comLines_fil (k : Nat) : ∀ {l : List Comment}, ComsOK l → ∃ g ag, comLines k l = 10 :: g ∧ Fil g ag := by
  intro l
  induction l with
  | nil => intro _; exact ⟨[], [], rfl, .nil⟩
  | cons c l ih =>
    intro h
    obtain ⟨g, ag, e, hg⟩ := ih (fun x hx => h x (by simp [hx]))
    refine ⟨_, CM (comText c) :: NL :: ag, rfl, ?_⟩
    rw [e]
    exact .com k _ g ag (comText_ok (h c (by simp))).1 hg

theorem nlText_end (k : Nat) {l : List Comment} (h : ComsOK l) : ∃ aw, End (nlText k l) aw := by
  cases l with
  | nil => exact ⟨_, End.nl⟩
  | cons c l =>
    obtain ⟨g, ag, e, hg⟩ := comLines_fil k (l := l) (fun x hx => h x (by simp [hx]))
    refine ⟨_, _, g, ag, .com 1 (comText c) (comText_ok (h c (by simp))).1, hg, ?_, rfl⟩
    show 32 :: 32 :: (comText c ++ comLines k l) = 32 :: 32 :: (comText c ++ [10]) ++ g
    rw [e]
    simp

/-! ## Appending, with comments pending -/

/-- like `Adds`, but a line end and comments may be pending -/
def AddsC (st st' : St) (P : Bytes → List Comment → Prop) : Prop :=
  ComsOK st'.comment ∧ (st'.bad = false → st.bad = false ∧ ∃ s, st'.out = s.reverse ++ st.out ∧ EndOK s ∧ P s st'.comment)

theorem AddsC.mono {st st' P Q} (h : AddsC st st' P) (h' : ∀ s p, ComsOK p → P s p → Q s p) : AddsC st st' Q :=
  ⟨h.1, fun hb => by obtain ⟨a, s, b, c, d⟩ := h.2 hb; exact ⟨a, s, b, c, h' s _ h.1 d⟩⟩

theorem comsOK_nil : ComsOK [] := fun _ h => by cases h

theorem AddsN.toC {st st' P} (h : AddsN st st' P) (he : ∀ s, P s → EndOK s) : AddsC st st' (fun s p => p = [] ∧ P s) :=
  ⟨by rw [h.1]; exact comsOK_nil, fun hb => by obtain ⟨a, s, b, c⟩ := h.2 hb; exact ⟨a, s, b, he s c, h.1, c⟩⟩

theorem Adds.transC {st st1 st2 P Q R} (h1 : Adds st st1 P) (h2 : Clean st1 → AddsC st1 st2 Q) (h : ∀ s1 s2 p, ComsOK p → P s1 → Q s2 p → R (s1 ++ s2) p) : AddsC st st2 R := by
  have h2' := h2 h1.1
  refine ⟨h2'.1, fun hb => ?_⟩
  obtain ⟨b1, s2, e2, he, q2⟩ := h2'.2 hb
  obtain ⟨b0, s1, e1, q1⟩ := h1.2 b1
  exact ⟨b0, s1 ++ s2, by rw [e2, e1, List.reverse_append, List.append_assoc], he.app, h s1 s2 _ h2'.1 q1 q2⟩

/-- a text that does not end with a blank -/
theorem AddsC.emit {st st1 : St} {P R : Bytes → List Comment → Prop} {t : Bytes} (h1 : AddsC st st1 P) (ht : EndOK t) (h : ∀ s p, ComsOK p → P s p → R (s ++ t) p) :
    AddsC st (emit t st1) R := by
  refine ⟨h1.1, fun hb => ?_⟩
  obtain ⟨b0, s, e, he, q⟩ := h1.2 hb
  refine ⟨b0, s ++ t, ?_, ht.app, h s _ h1.1 q⟩
  show t.reverse ++ st1.out = _
  rw [e, List.reverse_append, List.append_assoc]

theorem flush_spec (m : Nat) : ∀ (l : List Comment) (st : St) (s out : Bytes), ComsOK l → EndOK s → st.out = s.reverse ++ out →
    ∃ st', emit (10 :: spaces m) (trim (flushComments m false l st)) = st' ∧ st'.out = (s ++ comLines m l ++ spaces m).reverse ++ out ∧ st'.comment = st.comment ∧ st'.needsNL = st.needsNL ∧
      st'.bad = st.bad := by
  intro l
  induction l with
  | nil =>
    intro st s out _ hs ho
    refine ⟨_, rfl, ?_, rfl, rfl, rfl⟩
    show (10 :: spaces m).reverse ++ st.out.dropWhile (· == 32) = _
    rw [ho, trim_end hs]
    simp [comLines]
  | cons c l ih =>
    intro st s out hok hs ho
    have hc := comText_ok (hok c (by simp))
    have e1 : (emit (comText c) (emit (10 :: spaces m) (trim st))).out = (s ++ (10 :: (spaces m ++ comText c))).reverse ++ out := by
      show (comText c).reverse ++ ((10 :: spaces m).reverse ++ st.out.dropWhile (· == 32)) = _
      rw [ho, trim_end hs]
      simp
    obtain ⟨st', h1, h2, h3, h4, h5⟩ := ih (emit (comText c) (emit (10 :: spaces m) (trim st))) _ out (fun x hx => hok x (by simp [hx])) (hc.2.app.cons.app) e1
    refine ⟨st', h1, ?_, h3, h4, h5⟩
    rw [h2]
    simp [comLines]

theorem newline_pend {st : St} {s out : Bytes} (hs : EndOK s) (hok : ComsOK st.comment) (ho : st.out = s.reverse ++ out) :
    (newline st).out = (s ++ nlText st.margin st.comment ++ spaces st.margin).reverse ++ out ∧ (newline st).bad = st.bad := by
  cases hc : st.comment with
  | nil =>
    rw [newline_pending hc]
    refine ⟨?_, rfl⟩
    show (10 :: spaces st.margin).reverse ++ st.out.dropWhile (· == 32) = _
    rw [ho, trim_end hs]
    simp [nlText]
  | cons c l =>
    rw [hc] at hok
    have hct := comText_ok (hok c (by simp))
    have e0 : (emit (comText c) (emit b!"  " { st with needsNL := false })).out = (s ++ (32 :: 32 :: comText c)).reverse ++ out := by
      show (comText c).reverse ++ (b!"  ".reverse ++ st.out) = _
      rw [ho]
      simp
    obtain ⟨st', h1, h2, h3, h4, h5⟩ := flush_spec st.margin l (emit (comText c) (emit b!"  " { st with needsNL := false })) _ out (fun x hx => hok x (by simp [hx])) (hct.2.cons.cons.app) e0
    have hk : (flushComments st.margin false l (emit (comText c) (emit b!"  " { st with needsNL := false }))).margin = st.margin := (keep_flush _ _ _ _).2
    have e : (newline st).out = st'.out ∧ (newline st).bad = st'.bad := by
      rw [← h1]
      unfold newline
      dsimp only
      rw [hc]
      refine ⟨?_, rfl⟩
      rw [hc] at hk
      exact congrArg (fun k => (10 :: spaces k).reverse ++ (trim (flushComments st.margin false l (emit (comText c) (emit b!"  "
        { st with comment := c :: l, needsNL := false })))).out) hk
    refine ⟨?_, e.2.trans h5⟩
    rw [e.1, h2]
    simp [nlText]

theorem newline_clears (st : St) : Clean (newline st) := by
  unfold newline
  dsimp only
  split
  · rename_i h
    exact ⟨show st.comment = [] by simpa using h, rfl⟩
  · refine ⟨rfl, ?_⟩
    have key : ∀ (m : Nat) (l : List Comment) (b : Bool) (st : St), (flushComments m b l st).needsNL = st.needsNL := by
      intro m l
      induction l with
      | nil => intro b st; rfl
      | cons c l ih =>
        intro b st
        unfold flushComments
        dsimp only
        rw [ih]
        cases b <;> rfl
    show (flushComments _ _ _ _).needsNL = false
    rw [key]
    rfl

theorem AddsC.newline {st st1 : St} {P : Bytes → List Comment → Prop} (h1 : AddsC st st1 P) :
    Adds st (newline st1) (fun s => ∃ s0 p, s = s0 ++ (nlText st1.margin p ++ spaces st1.margin) ∧ ComsOK p ∧ P s0 p) := by
  refine ⟨newline_clears _, fun hb => ?_⟩
  have hbad : (Print.newline st1).bad = st1.bad := by
    have key : ∀ (m : Nat) (l : List Comment) (b : Bool) (st : St), (flushComments m b l st).bad = st.bad := by
      intro m l
      induction l with
      | nil => intro b st; rfl
      | cons c l ih =>
        intro b st
        unfold flushComments
        dsimp only
        rw [ih]
        cases b <;> rfl
    unfold Print.newline
    dsimp only
    split
    · rfl
    · show (flushComments _ _ _ _).bad = _
      rw [key]
      rfl
  rw [hbad] at hb
  obtain ⟨b0, s, e, he, p⟩ := h1.2 hb
  refine ⟨b0, _, ?_, s, st1.comment, rfl, h1.1, p⟩
  rw [(newline_pend he h1.1 e).1]
  simp

/-- nothing but the indentation is on the line -/
def Fresh (st : St) : Prop := ∃ o, st.out = spaces st.margin ++ o ∧ (o = [] ∨ ∃ o', o = 10 :: o')

theorem fresh_newline (st : St) : Fresh (newline st) := by
  have hm := (keep_newline st).2
  unfold Fresh
  rw [hm]
  unfold newline
  dsimp only
  split
  · exact ⟨10 :: (trim st).out, by show (10 :: spaces st.margin).reverse ++ _ = _; simp [spaces_reverse, trim], .inr ⟨_, rfl⟩⟩
  · rename_i h
    have hk := keep_flush st.margin st.comment true (emit b!"  " { st with needsNL := false })
    refine ⟨10 :: (trim (flushComments st.margin true st.comment (emit b!"  " { st with needsNL := false }))).out, ?_, .inr ⟨_, rfl⟩⟩
    have : (10 :: spaces st.margin).reverse ++ (trim (flushComments st.margin true st.comment (emit b!"  " { st with needsNL := false }))).out =
        spaces st.margin ++ 10 :: (trim (flushComments st.margin true st.comment (emit b!"  " { st with needsNL := false }))).out := by
      rw [List.reverse_cons, spaces_reverse, List.append_assoc]
      rfl
    rw [← this]
    exact congrArg (fun k => (10 :: spaces k).reverse ++ (trim (flushComments st.margin true st.comment (emit b!"  " { st with needsNL := false }))).out) hk.2

/-- after a line end, and perhaps a blank line -/
theorem nls_spec {st0 st1 : St} {P : Bytes → List Comment → Prop} {m : Nat} (b : Bool) (h : AddsC st0 st1 P) (hm : st1.margin = m) :
    ∃ j, Adds st0 (if b then newline st1 else newline (newline st1)) (fun s => ∃ s0 p, s = s0 ++ (nlText m p ++ (List.replicate j 10 ++ spaces m)) ∧ ComsOK p ∧ P s0 p) ∧
      Fresh (if b then newline st1 else newline (newline st1)) ∧ Keep st1 (if b then newline st1 else newline (newline st1)) := by
  have n1 := h.newline
  have k1 := keep_newline st1
  cases b
  · refine ⟨1, ?_, fresh_newline _, k1.trans (keep_newline _)⟩
    simp only [Bool.false_eq_true, if_false]
    have n1' : AddsN st0 (newline st1) _ := n1.toN
    rw [newline_pending n1.1.1, k1.2, hm]
    rw [hm] at n1
    refine ⟨⟨n1.1.1, rfl⟩, fun hb => ?_⟩
    obtain ⟨b0, s, e, s0, p, rfl, hp, hq⟩ := n1.2 hb
    refine ⟨b0, _, ?_, s0, p, rfl, hp, hq⟩
    show (10 :: spaces m).reverse ++ (newline st1).out.dropWhile (· == 32) = _
    obtain ⟨r, er⟩ : ∃ r, nlText m p = r ++ [10] := by
      have key : ∀ l : List Comment, ∃ r, comLines m l = r ++ [10] := by
        intro l
        induction l with
        | nil => exact ⟨[], rfl⟩
        | cons c l ih => obtain ⟨r, hr⟩ := ih; exact ⟨10 :: (spaces m ++ (comText c ++ r)), by show 10 :: (spaces m ++ (comText c ++ comLines m l)) = _; rw [hr]; simp⟩
      cases p with
      | nil => exact ⟨[], rfl⟩
      | cons c l => obtain ⟨r, hr⟩ := key l; exact ⟨32 :: 32 :: (comText c ++ r), by show 32 :: 32 :: (comText c ++ comLines m l) = _; rw [hr]; simp⟩
    have e2 : (s0 ++ (nlText m p ++ spaces m)).reverse ++ st0.out = spaces m ++ 10 :: ((s0 ++ r).reverse ++ st0.out) := by rw [er]; simp [spaces_reverse]
    rw [e, e2, trim_spaces, er]
    simp [spaces_reverse]
  · refine ⟨0, ?_, fresh_newline _, k1⟩
    rw [hm] at n1
    simpa using n1

end Verif.Round
