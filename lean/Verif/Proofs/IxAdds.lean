import Verif.Proofs.IxLx
/-
What the printer appends to its output when comments may be pending: like Proofs/PrAdds.lean.
-/
namespace Verif.RoundI
open Verif Verif.Syntax Verif.Lexer Verif.Print Verif.Grammar Verif.Round

/-! ## Appending -/

/-- no line end is pending, and the pending comments are well-formed -/
def Clean (st : St) : Prop := ComsOK st.comment ∧ st.needsNL = false

/-- `st'` is `st` after appending a text with property `P` -/
def Adds (st st' : St) (P : Bytes → Prop) : Prop :=
  Clean st' ∧ (st'.bad = false → st.bad = false ∧ ∃ s, st'.out = s.reverse ++ st.out ∧ P s)

theorem Adds.refl {st : St} (h : Clean st) : Adds st st (· = []) := ⟨h, fun hb => ⟨hb, [], rfl, rfl⟩⟩

theorem Adds.mono {st st' P Q} (h : Adds st st' P) (h' : ∀ s, P s → Q s) : Adds st st' Q :=
  ⟨h.1, fun hb => by obtain ⟨a, s, b, c⟩ := h.2 hb; exact ⟨a, s, b, h' s c⟩⟩

theorem Adds.bad {st st' : St} {P} (h : Clean st') (hb : st'.bad = true) : Adds st st' P := ⟨h, fun h' => by rw [hb] at h'; cases h'⟩

theorem Adds.trans {st st1 st2 P Q R} (h1 : Adds st st1 P) (h2 : Clean st1 → Adds st1 st2 Q) (h : ∀ s1 s2, P s1 → Q s2 → R (s1 ++ s2)) : Adds st st2 R := by
  have h2' := h2 h1.1
  refine ⟨h2'.1, fun hb => ?_⟩
  obtain ⟨b1, s2, e2, q2⟩ := h2'.2 hb
  obtain ⟨b0, s1, e1, q1⟩ := h1.2 b1
  exact ⟨b0, s1 ++ s2, by rw [e2, e1, List.reverse_append, List.append_assoc], h s1 s2 q1 q2⟩

theorem Adds.emit {st st1 : St} {P R : Bytes → Prop} {t : Bytes} (h1 : Adds st st1 P) (h : ∀ s, P s → R (s ++ t)) : Adds st (emit t st1) R :=
  Adds.trans h1 (fun hc => ⟨hc, fun hb => ⟨hb, t, rfl, rfl⟩⟩) (Q := (· = t)) (fun s1 s2 p q => by rw [q]; exact h s1 p)

theorem Adds.emit0 {st : St} {R : Bytes → Prop} {t : Bytes} (hc : Clean st) (h : R t) : Adds st (Print.emit t st) R :=
  (Adds.refl hc).emit (fun s e => by rw [e]; exact h)

/-! ## Reading -/

/-- the text `s` is read as the tokens `as`, whatever the printer writes next -/
def T (b : Bool) (s : Bytes) (as : List ATok) : Prop := ∀ c, Follow c → Lx b s c as

theorem Lx.cast {b s c as as'} (h : Lx b s c as) (e : as = as') : Lx b s c as' := e ▸ h
theorem Lx.castS {b s s' c as} (h : Lx b s c as) (e : s = s') : Lx b s' c as := e ▸ h
theorem T.cast {b s as as'} (h : T b s as) (e : as = as') : T b s as' := e ▸ h
theorem T.castS {b s s' as} (h : T b s as) (e : s = s') : T b s' as := e ▸ h

/-- a token, then more -/
theorem Lx.pre {b t s c a as} (h : TextTok t (s.headD c) a) (hd : depthChange a.kind = 0) (h2 : Lx b s c as) : Lx b (t ++ s) c (a :: as) :=
  Lx.app b t s c [a] as (Lx.tok b t _ a h hd) h2

/-- a blank, then more -/
theorem Lx.sp {b s c as} (h : Lx b s c as) : Lx b (32 :: s) c as := Lx.app b [32] s c [] as (Lx.space ..) h

/-- a text, then more -/
theorem Lx.appT {b s1 s2 c as1 as2} (h1 : T b s1 as1) (hf : Follow (s2.headD c)) (h2 : Lx b s2 c as2) : Lx b (s1 ++ s2) c (as1 ++ as2) :=
  Lx.app b s1 s2 c as1 as2 (h1 _ hf) h2

theorem lx_spaces (b : Bool) (n : Nat) (c : UInt8) : Lx b (spaces n) c [] := by
  induction n with
  | zero => exact Lx.nil ..
  | succ n ih => exact Lx.sp ih

theorem lx_spaces_app {b : Bool} {s c as} (n : Nat) (h : Lx b s c as) : Lx b (spaces n ++ s) c as := by
  induction n with
  | zero => exact h
  | succ n ih => exact Lx.sp ih


/-- a text that reads as nothing inside brackets -/
def Gap (t : Bytes) : Prop := ∀ s c as, Lx true s c as → Lx true (t ++ s) c as

theorem Gap.nil : Gap [] := fun _ _ _ h => h
theorem Gap.app {t1 t2} (h1 : Gap t1) (h2 : Gap t2) : Gap (t1 ++ t2) := fun s c as h => by rw [List.append_assoc]; exact h1 _ _ _ (h2 _ _ _ h)
theorem Gap.spaces (n : Nat) : Gap (spaces n) := fun _ _ _ h => lx_spaces_app n h
theorem Gap.nl {t} (h : Gap t) : Gap (10 :: t) := fun s c as h' => Lx.app true [10] (t ++ s) c [] as (Lx.newline _) (h _ _ _ h')
theorem Gap.sp {t} (h : Gap t) : Gap (32 :: t) := fun s c as h' => Lx.sp (h _ _ _ h')
theorem Gap.com {k t} (hk : ComText k) (h : Gap (10 :: t)) : Gap (k ++ 10 :: t) := fun s c as h' => by
  rw [List.append_assoc]
  exact Lx.app true k (10 :: t ++ s) c [] as (Lx.comment k hk) (h _ _ _ h')
theorem Gap.lx {t c} (h : Gap t) : Lx true t c [] := by have := h [] c [] (Lx.nil ..); simpa using this

theorem gap_comLines (k : Nat) : ∀ {l : List Comment} {t : Bytes}, ComsOK l → Gap t → ∃ u, comLines k l ++ t = 10 :: u ∧ Gap (10 :: u) := by
  intro l
  induction l with
  | nil => intro t _ h; exact ⟨t, rfl, h.nl⟩
  | cons c l ih =>
    intro t hok h
    obtain ⟨u, e, hu⟩ := ih (fun x hx => hok x (by simp [hx])) h
    have e2 : comLines k (c :: l) ++ t = 10 :: (spaces k ++ (comText c ++ (comLines k l ++ t))) := by
      show 10 :: (spaces k ++ (comText c ++ comLines k l)) ++ t = _
      simp
    rw [e2, e]
    refine ⟨_, rfl, Gap.nl ?_⟩
    exact (Gap.spaces k).app (Gap.com (comText_ok (hok c (by simp))).1 hu)

/-- the text of a line end inside brackets -/
def NlT (t : Bytes) : Prop := (∃ x r, t = x :: r ∧ (x = 32 ∨ x = 10)) ∧ Gap t

theorem NlT.mk0 (k : Nat) : NlT (10 :: spaces k) := ⟨⟨10, _, rfl, .inr rfl⟩, (Gap.spaces k).nl⟩

theorem NlT.mk (k j : Nat) {l : List Comment} (h : ComsOK l) : NlT (nlText k l ++ spaces j) := by
  cases l with
  | nil => exact NlT.mk0 j
  | cons c l =>
    refine ⟨⟨32, _, rfl, .inl rfl⟩, ?_⟩
    obtain ⟨u, e, hu⟩ := gap_comLines k (l := l) (t := spaces j) (fun x hx => h x (by simp [hx])) (Gap.spaces j)
    have : nlText k (c :: l) ++ spaces j = 32 :: 32 :: (comText c ++ 10 :: u) := by
      show 32 :: 32 :: (comText c ++ comLines k l) ++ spaces j = _
      rw [← e]; simp
    rw [this]
    exact ((Gap.com (comText_ok (h c (by simp))).1 hu).sp).sp

theorem NlT.app {t1 t2} (h1 : NlT t1) (h2 : Gap t2) : NlT (t1 ++ t2) := by
  obtain ⟨⟨x, r, rfl, hx⟩, h⟩ := h1
  exact ⟨⟨x, r ++ t2, rfl, hx⟩, h.app h2⟩

theorem NlT.head {t s : Bytes} {c : UInt8} (h : NlT t) : Follow ((t ++ s).headD c) := by
  obtain ⟨⟨x, r, rfl, rfl | rfl⟩, _⟩ := h
  · show Follow 32; unfold Follow; decide
  · show Follow 10; unfold Follow; decide

theorem newline_bad (st1 : St) : (newline st1).bad = st1.bad := by
  have key : ∀ (m : Nat) (l : List Comment) (b : Bool) (st : St), (flushComments m b l st).bad = st.bad := by
    intro m l
    induction l with
    | nil => intro b st; rfl
    | cons c l ih =>
      intro b st
      unfold flushComments
      dsimp only
      rw [ih]
      cases b <;> rfl
  unfold Print.newline
  dsimp only
  split
  · rfl
  · show (flushComments _ _ _ _).bad = _
    rw [key]
    rfl

theorem newline_out {st : St} {s out : Bytes} (hs : EndOK s ∨ st.comment ≠ []) (hok : ComsOK st.comment) (ho : st.out = s.reverse ++ out) :
    (newline st).out = (s ++ nlText st.margin st.comment ++ spaces st.margin).reverse ++ out := by
  cases hc : st.comment with
  | nil =>
    have := (newline_pend (s := s) (out := out) (hs.resolve_right (fun h => h hc)) hok ho).1
    rw [hc] at this
    exact this
  | cons c l =>
    rw [hc] at hok
    have hct := comText_ok (hok c (by simp))
    have e0 : (emit (comText c) (emit b!"  " { st with needsNL := false })).out = (s ++ (32 :: 32 :: comText c)).reverse ++ out := by
      show (comText c).reverse ++ (b!"  ".reverse ++ st.out) = _
      rw [ho]
      simp
    obtain ⟨st', h1, h2, h3, h4, h5⟩ := flush_spec st.margin l (emit (comText c) (emit b!"  " { st with needsNL := false })) _ out (fun x hx => hok x (by simp [hx])) (hct.2.cons.cons.app) e0
    have hk : (flushComments st.margin false l (emit (comText c) (emit b!"  " { st with needsNL := false }))).margin = st.margin := (keep_flush _ _ _ _).2
    have e : (newline st).out = st'.out := by
      rw [← h1]
      unfold newline
      dsimp only
      rw [hc] at hk
      rw [hc]
      exact congrArg (fun k => (10 :: spaces k).reverse ++ (trim (flushComments st.margin false l (emit (comText c) (emit b!"  "
        { st with comment := c :: l, needsNL := false })))).out) hk
    rw [e, h2]
    simp [nlText]

theorem clean_newline (st : St) : Clean (newline st) := by
  obtain ⟨h1, h2⟩ := newline_clears st
  exact ⟨by rw [h1]; exact comsOK_nil, h2⟩

theorem Adds.newlineP {st st1 : St} {P R : Bytes → Prop} (h1 : Adds st st1 P) (hend : ∀ s, P s → EndOK s ∨ st1.comment ≠ [])
    (h : ∀ s t, P s → NlT t → R (s ++ t)) : Adds st (newline st1) R := by
  refine ⟨clean_newline _, fun hb => ?_⟩
  rw [newline_bad] at hb
  obtain ⟨b0, s, e, p⟩ := h1.2 hb
  refine ⟨b0, s ++ (nlText st1.margin st1.comment ++ spaces st1.margin), ?_, h s _ p (NlT.mk _ _ h1.1.1)⟩
  rw [newline_out (hend s p) h1.1.1 e]
  simp

theorem Adds.newline {st st1 : St} {P R : Bytes → Prop} (h1 : Adds st st1 P) (hend : ∀ s, P s → EndOK s) (h : ∀ s t, P s → NlT t → R (s ++ t)) :
    Adds st (newline st1) R := h1.newlineP (fun s p => .inl (hend s p)) h

/-- a line end when no comment is pending -/
theorem Adds.newline0 {st st1 : St} {P R : Bytes → Prop} (h1 : Adds st st1 P) (hc : st1.comment = []) (hend : ∀ s, P s → EndOK s) (h : ∀ s k, P s → R (s ++ 10 :: spaces k)) :
    Adds st (Print.newline st1) R := by
  refine ⟨clean_newline _, fun hb => ?_⟩
  rw [newline_bad] at hb
  obtain ⟨b0, s, e, p⟩ := h1.2 hb
  refine ⟨b0, s ++ 10 :: spaces st1.margin, ?_, h s _ p⟩
  rw [newline_out (.inl (hend s p)) h1.1.1 e, hc]
  simp [nlText]

/-- nothing but the indentation is on the line, and no comment is pending -/
def FreshC (st : St) : Prop := Fresh st ∧ st.comment = []

theorem freshC_newline (st : St) : FreshC (newline st) := ⟨fresh_newline st, (newline_clears st).1⟩

theorem freshC_breakline {st : St} (h : st.depth ≠ 0) : FreshC (breakline st) := by
  unfold breakline
  rw [if_neg h]
  exact freshC_newline _

/-- the text of a line break: inside brackets or escaped -/
def Brk (esc : Bool) (t : Bytes) : Prop := if esc then ∃ m, t = 32 :: 92 :: 10 :: spaces m else NlT t

theorem Adds.breakline {st st1 : St} {P R : Bytes → Prop} (h1 : Adds st st1 P) (hend : ∀ s, P s → EndOK s)
    (h : ∀ s t, P s → Brk (decide (st1.depth = 0)) t → R (s ++ t)) : Adds st (breakline st1) R := by
  unfold Print.breakline
  by_cases hd : st1.depth = 0
  · rw [if_pos hd]
    refine h1.emit (fun s p => h s _ p ?_)
    rw [decide_eq_true hd]
    exact ⟨st1.margin, rfl⟩
  · rw [if_neg hd]
    refine h1.newline hend (fun s t p ht => h s _ p ?_)
    rw [decide_eq_false hd]
    exact ht

theorem lx_esc {b s c as} (m : Nat) (h : Lx b s c as) : Lx b (32 :: 92 :: 10 :: (spaces m ++ s)) c as :=
  Lx.sp (Lx.app b [92, 10] (spaces m ++ s) c [] as (Lx.cont ..) (lx_spaces_app m h))

theorem lx_brk {b esc : Bool} {t s c as} (hb : b = false → esc = true) (ht : Brk esc t) (h : Lx b s c as) : Lx b (t ++ s) c as := by
  cases esc with
  | true => obtain ⟨m, rfl⟩ := ht; exact lx_esc m h
  | false =>
    cases b with
    | false => cases hb rfl
    | true => exact ht.2 _ _ _ h

theorem brk_shape {esc : Bool} {t : Bytes} (ht : Brk esc t) : ∃ x r, t = x :: r ∧ (x = 32 ∨ x = 10) := by
  cases esc
  · exact ht.1
  · obtain ⟨m, rfl⟩ := ht; exact ⟨32, _, rfl, .inl rfl⟩

theorem brk_head {esc : Bool} {t s : Bytes} {c : UInt8} (ht : Brk esc t) : Follow ((t ++ s).headD c) := by
  obtain ⟨x, r, rfl, rfl | rfl⟩ := brk_shape ht
  · exact follow32
  · exact follow10

/-- the comments before an element -/
theorem before_in {l : List Comment} {st : St} (hok : ComsOK l) (hc : Clean st) (hf : l ≠ [] → FreshC st) :
    Adds st (beforeComments l st) (fun t => Gap t ∧ (l = [] → t = [])) ∧ Keep st (beforeComments l st) := by
  refine ⟨?_, keep_before l st⟩
  by_cases hl : l = []
  · subst hl
    exact (Adds.refl hc).mono (by rintro _ rfl; exact ⟨Gap.nil, fun _ => rfl⟩)
  · obtain ⟨⟨o, ho, ho2⟩, hcom⟩ := hf hl
    unfold beforeComments
    rw [if_neg (by simpa using hl)]
    have e2 : st.out.dropWhile (· == 32) = o := by
      rw [ho]
      rcases ho2 with rfl | ⟨o', rfl⟩
      · rw [List.append_nil]
        have key : ∀ n, (spaces n).dropWhile (· == 32) = [] := by
          intro n
          induction n with
          | zero => rfl
          | succ n ih =>
            show (32 :: spaces n).dropWhile (· == 32) = []
            rw [List.dropWhile_cons, if_pos (by rfl), ih]
        exact key _
      · exact trim_spaces _ _
    have e1 : trim st = { st with out := st.out.dropWhile (· == 32) } := rfl
    have e3 : indent (trim st) = 0 := by
      unfold indent
      rw [e1, e2]
      dsimp only
      rcases ho2 with rfl | ⟨o', rfl⟩ <;> rfl
    dsimp only
    rw [if_neg (by omega)]
    have e4 : emit (spaces (trim st).margin) (trim st) = st := by
      show { st with out := (spaces st.margin).reverse ++ st.out.dropWhile (· == 32) } = st
      rw [e2, spaces_reverse, ← ho]
    rw [e4]
    have key : ∀ (l : List Comment) (st0 st : St), ComsOK l → st.comment = [] → Adds st0 st Gap → Adds st0 (l.foldl (fun st c => Print.newline (Print.emit (comText c) st)) st) Gap := by
      intro l
      induction l with
      | nil => intro st0 st _ _ h; exact h
      | cons c l ih =>
        intro st0 st hok hcm h
        have hct := comText_ok (hok c (by simp))
        have h1 := h.emit (t := comText c) (R := fun s => ∃ s0, s = s0 ++ comText c ∧ Gap s0) (fun s q => ⟨s, rfl, q⟩)
        have h2 := h1.newline0 (R := Gap) hcm (by rintro _ ⟨s0, rfl, _⟩; exact hct.2.app) (by
          rintro _ k ⟨s0, rfl, q⟩
          rw [List.append_assoc]
          exact q.app (Gap.com hct.1 (Gap.spaces k).nl))
        exact ih st0 _ (fun x hx => hok x (by simp [hx])) (newline_clears _).1 h2
    exact (key l st st hok hcom ((Adds.refl hc).mono (by rintro _ rfl; exact Gap.nil))).mono (fun t h => ⟨h, fun h' => absurd h' hl⟩)

theorem end_in0 : ∀ (l : List Comment) {st0 st : St} {P R : Bytes → Prop}, ComsOK l → st.comment = [] → Adds st0 st P → (∀ s, P s → EndOK s) →
    (∀ s t, P s → EndOK (s ++ t) → (∀ u, Gap (10 :: u) → Gap (t ++ 10 :: u)) → (t = [] ∨ ∃ r, t = 10 :: r) → R (s ++ t)) →
    Adds st0 (endComments l st) R ∧ (endComments l st).comment = [] := by
  intro l
  induction l with
  | nil => intro st0 st P R _ hcm h he hR; exact ⟨h.mono (fun s p => by have := hR s [] p (by rw [List.append_nil]; exact he s p) (fun u h => h) (.inl rfl); simpa using this), hcm⟩
  | cons c l ih =>
    intro st0 st P R hok hcm h he hR
    have hct := comText_ok (hok c (by simp))
    have h1 := h.newline0 (R := fun s => ∃ s0 k, s = s0 ++ 10 :: spaces k ∧ P s0) hcm he (fun s k p => ⟨s, k, rfl, p⟩)
    have h2 := h1.emit (t := comText c) (R := fun s => ∃ s0 k, s = s0 ++ 10 :: (spaces k ++ comText c) ∧ P s0) (by rintro _ ⟨s0, k, rfl, p⟩; exact ⟨s0, k, by simp, p⟩)
    refine ih (fun x hx => hok x (by simp [hx])) (newline_clears _).1 h2 (by rintro _ ⟨s0, k, rfl, p⟩; exact hct.2.app.cons.app) ?_
    rintro _ t ⟨s0, k, rfl, p⟩ he2 hg hh
    have e : s0 ++ 10 :: (spaces k ++ comText c) ++ t = s0 ++ 10 :: (spaces k ++ (comText c ++ t)) := by simp
    rw [e] at he2 ⊢
    refine hR s0 _ p he2 (fun u hu => ?_) (.inr ⟨_, rfl⟩)
    have hu' := hg u hu
    have e2 : 10 :: (spaces k ++ (comText c ++ t)) ++ 10 :: u = 10 :: (spaces k ++ (comText c ++ (t ++ 10 :: u))) := by simp
    rw [e2]
    refine Gap.nl ((Gap.spaces k).app ?_)
    rcases hh with rfl | ⟨r, rfl⟩
    · exact Gap.com hct.1 hu
    · exact Gap.com hct.1 hu'

theorem endOK_tail {a b : Bytes} (h : EndOK (a ++ b)) (hb : b ≠ []) : EndOK b := by
  obtain ⟨q, x, e1, e2⟩ := h
  refine ⟨b.dropLast, b.getLast hb, (List.dropLast_concat_getLast hb).symm, ?_⟩
  rw [← List.dropLast_concat_getLast hb, ← List.append_assoc] at e1
  have := List.append_inj' e1 rfl
  have h2 : b.getLast hb = x := by simpa using this.2
  rw [h2]; exact e2

/-- the comments before a closing bracket and the line end after them -/
theorem end_in {l : List Comment} {st0 st : St} {P R : Bytes → Prop} {g : St → St} (hg : ∀ st, (g st).out = st.out ∧ (g st).comment = st.comment ∧ (g st).bad = st.bad ∧ (g st).needsNL = st.needsNL)
    (hok : ComsOK l) (h : Adds st0 st P) (he : ∀ s, P s → EndOK s) (hR : ∀ s t, P s → NlT t → R (s ++ t)) : Adds st0 (Print.newline (g (endComments l st))) R := by
  have hG : ∀ {st1 Q}, Adds st0 st1 Q → Adds st0 (g st1) Q := by
    intro st1 Q h
    obtain ⟨g1, g2, g3, g4⟩ := hg st1
    refine ⟨⟨by rw [g2]; exact h.1.1, by rw [g4]; exact h.1.2⟩, fun hb => ?_⟩
    rw [g3] at hb
    rw [g1]
    exact h.2 hb
  cases l with
  | nil => exact (hG (st1 := st) h).newline he hR
  | cons c l =>
    have hct := comText_ok (hok c (by simp))
    have h1 := h.newline (R := fun s => ∃ s0 t, s = s0 ++ t ∧ P s0 ∧ NlT t) he (fun s t p ht => ⟨s, t, rfl, p, ht⟩)
    have h2 := h1.emit (t := comText c) (R := fun s => ∃ s0 t, s = s0 ++ (t ++ comText c) ∧ P s0 ∧ NlT t) (by rintro _ ⟨s0, t, rfl, p, ht⟩; exact ⟨s0, t, by simp, p, ht⟩)
    obtain ⟨a, b⟩ := end_in0 (P := fun s => ∃ s0 t, s = s0 ++ (t ++ comText c) ∧ P s0 ∧ NlT t) (R := fun s => ∃ s0 t, s = s0 ++ t ∧ P s0 ∧ EndOK t ∧ ∀ k, NlT (t ++ 10 :: spaces k)) l (fun x hx => hok x (by simp [hx])) (show (emit (comText c) (Print.newline st)).comment = [] from (newline_clears st).1) h2
      (by rintro _ ⟨s0, t, rfl, p, ht⟩; exact hct.2.app.app) (by
        rintro _ t2 ⟨s0, t, rfl, p, ht⟩ he2 hg2 hh
        refine ⟨s0, t ++ (comText c ++ t2), by simp, p, ?_, fun k => ?_⟩
        · rcases hh with rfl | ⟨r, rfl⟩
          · rw [List.append_nil]; exact hct.2.app
          · exact (endOK_tail he2 (by simp)).app.app
        · have e : t ++ (comText c ++ t2) ++ 10 :: spaces k = t ++ (comText c ++ (t2 ++ 10 :: spaces k)) := by simp
          rw [e]
          refine ht.app ?_
          have := hg2 (spaces k) (Gap.spaces k).nl
          rcases hh with rfl | ⟨r, rfl⟩
          · exact Gap.com hct.1 (Gap.spaces k).nl
          · exact Gap.com hct.1 this)
    refine (hG a).newline0 (by rw [(hg _).2.1]; exact b) (by rintro _ ⟨s0, t, rfl, _, h, _⟩; exact h.app) ?_
    rintro _ k ⟨s0, t, rfl, p, _, ht⟩
    rw [List.append_assoc]
    exact hR _ _ p (ht k)

/-- the text `s` reads as tokens with property `P` -/
def YP (b : Bool) (P : List ATok → Prop) (s : Bytes) : Prop := StartOK s ∧ EndOK s ∧ ∃ as, T b s as ∧ P as

/-- `Y b x R s`: the text `s` reads as something of class `x` with value in `R`. -/
abbrev Y (b : Bool) (x : FNT) (R : Parser.Val → Prop) (s : Bytes) : Prop := YP b (fun as => Gen as (.n x) R) s

theorem YP.mono {b P Q s} (h : YP b P s) (h' : ∀ as, P as → Q as) : YP b Q s := by
  obtain ⟨h1, h2, as, h3, h4⟩ := h
  exact ⟨h1, h2, as, h3, h' as h4⟩

/-! ## Lists -/

/-- what is known about a printed element -/
def El (b : Bool) (elem : Expr → List ATok → Prop) (x : Expr) (s : Bytes) : Prop := EndOK s ∧ ∃ as, T b s as ∧ elem x as

theorem lx_comma {b s c as} (h : Lx b s c as) : Lx b (44 :: s) c (comma :: as) := Lx.pre (t := b!",") (tok_single (by decide) _) (by decide) h
theorem lx_colon {b s c as} (h : Lx b s c as) : Lx b (58 :: s) c (W 58 b!":" :: as) := Lx.pre (t := b!":") (tok_single (by decide) _) (by decide) h

section
variable {pr : Pr} {b : Bool} {elem : Expr → List ATok → Prop} {d : Nat}

theorem compact_rest {l : List Expr} (hx : ∀ x ∈ l, ∀ st, Clean st → st.depth = d → Adds st (pr x 0 st) (El b elem x)) (hk : ∀ e o st, Keep st (pr e o st)) :
    ∀ st, Clean st → st.depth = d → Adds st (compactElems pr false l st) (fun s => (l = [] ∧ s = [] ∨ EndOK s ∧ ∃ r, s = 44 :: r) ∧
      ∃ ass, All2 elem l ass ∧ T b s (ass.flatMap (comma :: ·))) := by
  induction l with
  | nil => intro st hc _; exact (Adds.refl hc).mono (fun s e => ⟨.inl ⟨rfl, e⟩, [], .nil, fun c _ => by rw [e]; exact Lx.nil ..⟩)
  | cons x l ih =>
    intro st hc hd
    have h0 : Adds st (emit b!", " st) (· = b!", ") := Adds.emit0 hc rfl
    have h1 : Adds st (pr x 0 (emit b!", " st)) (fun s => ∃ s', s = 44 :: 32 :: s' ∧ El b elem x s') :=
      h0.trans (fun h => hx x (by simp) _ h hd) (by rintro _ s2 rfl q; exact ⟨s2, rfl, q⟩)
    refine h1.trans (fun h => ih (fun y hy => hx y (by simp [hy])) _ h (((hk _ _ _).1).trans hd)) ?_
    rintro _ s2 ⟨s', rfl, he, as, ht, hel⟩ ⟨h3, ass, h4, h5⟩
    have hfol : ∀ c, Follow c → Follow (s2.headD c) := by
      intro c hc
      rcases h3 with ⟨_, rfl⟩ | ⟨_, r, rfl⟩
      · exact hc
      · exact follow44
    refine ⟨.inr ⟨?_, _, rfl⟩, as :: ass, .cons _ _ _ _ hel h4, fun c hc => ?_⟩
    · rcases h3 with ⟨_, rfl⟩ | ⟨h, _⟩
      · rw [List.append_nil]; exact he.cons.cons
      · exact h.app
    · have := lx_comma (Lx.sp (Lx.appT ht (hfol c hc) (h5 c hc)))
      simpa using this

theorem compact_spec {l : List Expr} {Q : Bytes → Prop} (hQ : ∀ s t, Q s → Q (s ++ t)) (hl : l ≠ [])
    (hx : ∀ x ∈ l, ∀ st, Clean st → st.depth = d → Adds st (pr x 0 st) (fun s => Q s ∧ El b elem x s))
    (hk : ∀ e o st, Keep st (pr e o st)) (st : St) (hc : Clean st) (hd : st.depth = d) :
    Adds st (compactElems pr true l st) (fun s => Q s ∧ EndOK s ∧ ∃ ass, All2 elem l ass ∧ T b s (joinC ass)) := by
  cases l with
  | nil => exact absurd rfl hl
  | cons x l =>
    refine (hx x (by simp) st hc hd).trans (fun h => compact_rest (fun y hy st hc hd => (hx y (by simp [hy]) st hc hd).mono (fun _ h => h.2)) hk _ h
      (((hk _ _ _).1).trans hd)) ?_
    rintro s s2 ⟨hs, he, as, ht, hel⟩ ⟨h3, ass, h4, h5⟩
    have hfol : ∀ c, Follow c → Follow (s2.headD c) := by
      intro c hc
      rcases h3 with ⟨_, rfl⟩ | ⟨_, r, rfl⟩
      · exact hc
      · exact follow44
    refine ⟨hQ _ _ hs, ?_, as :: ass, .cons _ _ _ _ hel h4, fun c hc => ?_⟩
    · rcases h3 with ⟨_, rfl⟩ | ⟨h, _⟩
      · rw [List.append_nil]; exact he
      · exact h.app
    · rw [joinC_cons]
      exact Lx.appT ht (hfol c hc) (h5 c hc)


theorem multi_spec {m : Mode} {l : List Expr} {first : Bool} (hx : ∀ x ∈ l, ∀ st, Clean st → FreshC st → st.depth = d → Adds st (pr x 0 st) (El true elem x))
    (hk : ∀ e o st, Keep st (pr e o st)) : ∀ {st0 st : St} {P : Bytes → Prop}, Adds st0 st P → (∀ s, P s → EndOK s) → st.depth = d →
    Adds st0 (multiElems pr m first l st) (fun s => ∃ s1 s2, s = s1 ++ s2 ∧ P s1 ∧ EndOK s ∧ ∃ ass tc, All2 elem l ass ∧ T true s2 (joinC ass ++ tcomma tc) ∧
      (l = [] → tc = false ∧ s2 = []) ∧ (m = .paren ∨ m = .def_ → tc = false) ∧ (m = .tuple → l ≠ [] → tc = true) ∧ (∀ c, Follow c → Follow (s2.headD c))) := by
  induction l generalizing first with
  | nil =>
    intro st0 st P h hp _
    refine h.mono (fun s p => ⟨s, [], by simp, p, hp s p, [], false, .nil, fun c _ => Lx.nil .., fun _ => ⟨rfl, rfl⟩, fun _ => rfl, ?_, fun c h => h⟩)
    intro _ h; exact absurd rfl h
  | cons x l ih =>
    intro st0 st P h hp hd
    unfold multiElems
    dsimp only
    have h1 : Adds st0 (newline (if first && !st.comment.isEmpty then emit (10 :: spaces (st.margin - 2)) st else st)) (fun s => ∃ s1 t, s = s1 ++ t ∧ P s1 ∧ NlT t) := by
      cases hf : first && !st.comment.isEmpty with
      | false => exact h.newline hp (fun s t p ht => ⟨s, t, rfl, p, ht⟩)
      | true =>
        simp only [if_true]
        have hne : st.comment ≠ [] := by
          simp only [Bool.and_eq_true, Bool.not_eq_true', List.isEmpty_eq_false_iff] at hf
          exact hf.2
        have h0 := h.emit (t := 10 :: spaces (st.margin - 2)) (R := fun s => ∃ s1, s = s1 ++ 10 :: spaces (st.margin - 2) ∧ P s1) (fun s p => ⟨s, rfl, p⟩)
        refine h0.newlineP (fun _ _ => .inr hne) ?_
        rintro _ t ⟨s1, rfl, p⟩ ht
        refine ⟨s1, 10 :: (spaces (st.margin - 2) ++ t), by simp, p, ⟨10, _, rfl, .inr rfl⟩, ?_⟩
        exact ((Gap.spaces _).app ht.2).nl
    generalize hst1 : (if first && !st.comment.isEmpty then emit (10 :: spaces (st.margin - 2)) st else st) = stx at h1 ⊢
    have hdx : stx.depth = st.depth := by rw [← hst1]; split <;> rfl
    have hd1 : (newline stx).depth = d := ((keep_newline stx).1).trans (hdx.trans hd)
    have h2 : Adds st0 (pr x 0 (newline stx)) (fun s => ∃ s1 t s', s = s1 ++ (t ++ s') ∧ P s1 ∧ NlT t ∧ El true elem x s') :=
      h1.trans (fun hc => hx x (by simp) _ hc (freshC_newline _) hd1) (by rintro _ s2 ⟨s1, t, rfl, p, ht⟩ q; exact ⟨s1, t, s2, by simp, p, ht, q⟩)
    have hfl : ∀ (t s' : Bytes), NlT t → ∀ c, Follow c → Follow ((t ++ s').headD c) := fun t s' ht c _ => ht.head
    cases hc : (!l.isEmpty || needsTrailingComma m x) with
    | false =>
      have hl : l = [] := by
        simp only [Bool.or_eq_false_iff, Bool.not_eq_false'] at hc
        simpa using hc.1
      subst hl
      simp only [Bool.false_eq_true, if_false]
      show Adds st0 (pr x 0 (newline stx)) _
      refine h2.mono ?_
      rintro _ ⟨s1, t, s', rfl, p, hnl, he, as, ht, hel⟩
      refine ⟨s1, t ++ s', rfl, p, EndOK.app (EndOK.app he), [as], false, .cons _ _ _ _ hel .nil, fun c hc => ?_, ?_, fun _ => rfl, ?_, hfl _ _ hnl⟩
      · have := hnl.2 _ _ _ (ht c hc)
        simpa [joinC, tcomma] using this
      · intro h; cases h
      · rintro rfl _
        cases hc
    | true =>
      simp only [if_true]
      have h3 : Adds st0 (emit b!"," (pr x 0 (newline stx))) (fun s => ∃ s1 t s', s = s1 ++ (t ++ (s' ++ [44])) ∧ P s1 ∧ NlT t ∧ El true elem x s') :=
        h2.emit (by rintro _ ⟨s1, t, s', rfl, p, q⟩; exact ⟨s1, t, s', by simp, p, q⟩)
      have h4 := ih (first := false) (fun y hy => hx y (by simp [hy])) h3
        (by rintro _ ⟨s1, t, s', rfl, p, q⟩; exact EndOK.app (EndOK.app (EndOK.app (EndOK.single (by decide)))))
        (show (pr x 0 (newline stx)).depth = d from ((hk _ _ _).1).trans hd1)
      refine h4.mono ?_
      rintro _ ⟨_, s2, rfl, ⟨s1, t, s', rfl, p, hnl, he, as, ht, hel⟩, hend, ass, tc, h5, h6, h7, h8, h9, h10⟩
      have hl : l = [] → ass = [] := by
        rintro rfl; cases h5; rfl
      by_cases hn : l = []
      · obtain rfl := hl hn
        obtain ⟨rfl, rfl⟩ := h7 hn
        refine ⟨s1, t ++ (s' ++ [44]), by simp, p, hend, [as], true, ?_, fun c hc => ?_, ?_, ?_, fun _ _ => rfl, hfl _ _ hnl⟩
        · subst hn; exact .cons _ _ _ _ hel .nil
        · have := hnl.2 _ _ _ (Lx.appT ht (s2 := [44]) (c := c) follow44 (lx_comma (Lx.nil true c)))
          simpa [joinC, tcomma] using this
        · intro h; cases h
        · intro hm
          subst hn
          simp only [List.isEmpty_nil, Bool.not_true, Bool.false_or] at hc
          rcases hm with rfl | rfl <;> simp [needsTrailingComma] at hc
      · refine ⟨s1, t ++ (s' ++ (44 :: s2)), by simp, p, hend, as :: ass, tc, .cons _ _ _ _ hel h5, fun c hc => ?_, ?_, h8, fun hm _ => h9 hm hn, hfl _ _ hnl⟩
        · have := hnl.2 _ _ _ (Lx.appT ht (s2 := 44 :: s2) (c := c) follow44 (lx_comma (h6 c hc)))
          refine this.cast ?_
          cases ass with
          | nil => cases h5; exact absurd rfl hn
          | cons a ass => simp [joinC]
        · intro h; cases h

/-- the text between the brackets of a sequence -/
structure Seq (elem : Expr → List ATok → Prop) (m : Mode) (l : List Expr) (s : Bytes) (as : List ATok) : Prop where
  all : SeqAll elem m l as
  lex : T true s as

theorem useCompact_nb {ft lv start l e m fc fm} (h : useCompact ft lv start l e m fc fm = true) : ∀ x ∈ l, NB x := by
  intro x hx
  unfold useCompact at h
  split at h
  · cases h
  · rename_i hn
    simp only [Bool.not_eq_true, List.any_eq_false] at hn
    have := hn x hx
    simp at this
    exact this.1

theorem useCompact_end {ft lv start l e m fc fm} (h : useCompact ft lv start l (some e) m fc fm = true) : e.comments.before = [] := by
  refine Classical.byContradiction (fun hn => ?_)
  have hne : (!e.comments.before.isEmpty) = true := by simpa using hn
  unfold useCompact at h
  dsimp only at h
  rw [if_pos hne] at h
  split at h <;> cases h

theorem seq_spec {ft : FileType} {o c : UInt8} {start : Pos} {l : List Expr} {e : Option EndN} {m : Mode} {fc fm : Bool} (hm : m ≠ .seq)
    (ho : o = 40 ∨ o = 91 ∨ o = 123) (hnil : ∀ x ∈ l, x.isNil = false) (hend : ∀ en, e = some en → ComsOK en.comments.before) (hdef : m = .def_ → e = none)
    (hx : ∀ x ∈ l, ∀ st, Clean st → (NB x ∨ FreshC st) → Adds st (pr x 0 st) (El true elem x)) (hk : ∀ e o st, Keep st (pr e o st)) (st : St) (hc : Clean st) :
    Adds st (seq ft pr [o] [c] start l e m fc fm st) (fun s => ∃ s1 as, s = o :: (s1 ++ [c]) ∧ Seq elem m l s1 as) := by
  rw [seq_eq]
  have hfil : l.filter (fun x => !x.isNil) = l := List.filter_eq_self.2 (fun x hx => by simp [hnil x hx])
  rw [hfil]
  have hopen : Adds st (seqOpen m [o] st) (· = [o]) := by
    unfold seqOpen; rw [if_neg hm]
    exact Adds.emit0 hc rfl
  have ho32 : o ≠ 32 := by rcases ho with rfl | rfl | rfl <;> decide
  have hclose : ∀ st2 : St, Adds st st2 (fun s => ∃ s1 as, s = o :: s1 ∧ Seq elem m l s1 as) →
      Adds st (seqClose m [c] st2) (fun s => ∃ s1 as, s = o :: (s1 ++ [c]) ∧ Seq elem m l s1 as) := by
    intro st2 h
    unfold seqClose; rw [if_neg hm]
    have h' : Adds st { st2 with depth := st2.depth - 1 } (fun s => ∃ s1 as, s = o :: s1 ∧ Seq elem m l s1 as) := h
    exact h'.emit (by rintro _ ⟨s1, as, rfl, h⟩; exact ⟨s1, as, rfl, h⟩)
  apply hclose
  split
  · -- compact
    rename_i hcomp
    unfold seqCompact
    dsimp only
    by_cases hl : l = []
    · subst hl
      rw [if_neg (by rintro ⟨h, _⟩; simp at h)]
      refine hopen.mono ?_
      rintro _ rfl
      exact ⟨[], [], rfl, ⟨[], false, .nil, rfl, fun _ => rfl, fun _ => rfl, fun _ h => by simp at h⟩, fun c _ => Lx.nil ..⟩
    · have h1 : Adds st (compactElems pr true l (seqOpen m [o] st)) (fun s => ∃ s1, s = o :: s1 ∧ True ∧ EndOK s1 ∧ ∃ ass, All2 elem l ass ∧ T true s1 (joinC ass)) :=
        hopen.trans (fun hc' => compact_spec (Q := fun _ => True) (fun _ _ _ => trivial) hl (fun x hxm st hst _ => (hx x hxm st hst (.inl (useCompact_nb hcomp x hxm))).mono (fun _ h => ⟨trivial, h⟩)) hk _ hc' rfl) (by
          rintro _ s2 rfl ⟨a, b, h⟩; exact ⟨s2, rfl, a, b, h⟩)
      by_cases h2 : l.length = 1 ∧ m = .tuple
      · rw [if_pos h2]
        refine h1.emit ?_
        rintro _ ⟨s1, rfl, _, he, ass, h3, h4⟩
        refine ⟨s1 ++ [44], joinC ass ++ tcomma true, rfl, ⟨ass, true, h3, rfl, fun h => absurd h hl, ?_, fun _ _ => rfl⟩, fun c hc => ?_⟩
        · rintro (h | h) <;> (rw [h2.2] at h; cases h)
        · exact Lx.appT h4 (s2 := [44]) (c := c) follow44 (lx_comma (Lx.nil true c))
      · rw [if_neg h2]
        refine h1.mono ?_
        rintro _ ⟨s1, rfl, _, he, ass, h3, h4⟩
        refine ⟨s1, joinC ass, rfl, ⟨ass, false, h3, by simp [tcomma], fun _ => rfl, fun _ => rfl, fun hm hl => absurd ⟨hl, hm⟩ h2⟩, h4⟩
  · -- multi-line
    unfold seqMulti
    dsimp only
    generalize (if m = Mode.def_ then defIndentation else listIndentation) = ind
    have h0 : Adds st { seqOpen m [o] st with margin := (seqOpen m [o] st).margin + ind } (· = [o]) := hopen
    have h1 := multi_spec (m := m) (first := true) (d := (seqOpen m [o] st).depth) (fun x hxm st hst hfr _ => hx x hxm st hst (.inr hfr)) hk h0 (by rintro _ rfl; exact EndOK.single ho32) rfl
    by_cases hd : m = .def_
    · rw [if_pos hd, hdef hd]
      refine h1.mono ?_
      rintro _ ⟨_, s2, rfl, rfl, hend, ass, tc, h3, h4, h5, h6, h7, h8⟩
      exact ⟨s2, _, rfl, ⟨ass, tc, h3, rfl, fun h => (h5 h).1, h6, fun h => by rw [hd] at h; cases h⟩, h4⟩
    · rw [if_neg hd]
      have fin : ∀ (s t : Bytes), (∃ s1 s2, s = s1 ++ s2 ∧ s1 = [o] ∧ EndOK s ∧ ∃ ass tc, All2 elem l ass ∧ T true s2 (joinC ass ++ tcomma tc) ∧
          (l = [] → tc = false ∧ s2 = []) ∧ (m = .paren ∨ m = .def_ → tc = false) ∧ (m = .tuple → l ≠ [] → tc = true) ∧ (∀ c, Follow c → Follow (s2.headD c))) → NlT t →
          ∃ s1 as, s ++ t = o :: s1 ∧ Seq elem m l s1 as := by
        rintro _ t ⟨_, s2, rfl, rfl, hend, ass, tc, h3, h4, h5, h6, h7, h8⟩ ht
        refine ⟨s2 ++ t, _, by simp, ⟨ass, tc, h3, rfl, fun h => (h5 h).1, h6, fun h hl => h7 h (by rintro rfl; simp at hl)⟩, fun c hc => ?_⟩
        have hf : Follow (t.headD c) := by have := ht.head (s := []) (c := c); simpa using this
        have := Lx.appT h4 (s2 := t) (c := c) hf ht.2.lx
        simpa using this
      have hen : ∀ s, (∃ s1 s2, s = s1 ++ s2 ∧ s1 = [o] ∧ EndOK s ∧ ∃ ass tc, All2 elem l ass ∧ T true s2 (joinC ass ++ tcomma tc) ∧
          (l = [] → tc = false ∧ s2 = []) ∧ (m = .paren ∨ m = .def_ → tc = false) ∧ (m = .tuple → l ≠ [] → tc = true) ∧ (∀ c, Follow c → Follow (s2.headD c))) → EndOK s := by
        rintro _ ⟨_, s2, rfl, rfl, hend, _⟩; exact hend
      cases e with
      | none => exact end_in (l := []) (g := fun st => { st with margin := st.margin - ind }) (fun _ => ⟨rfl, rfl, rfl, rfl⟩) comsOK_nil h1 hen fin
      | some en => exact end_in (g := fun st => { st with margin := st.margin - ind }) (fun _ => ⟨rfl, rfl, rfl, rfl⟩) (hend en rfl) h1 hen fin

end

end Verif.RoundI
