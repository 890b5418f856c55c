import Verif.Proofs.PrKeep
import Verif.Proofs.Gen
import Verif.Proofs.LxTok
/-
What the printer appends to its output.
-/
namespace Verif.Round
open Verif Verif.Syntax Verif.Lexer Verif.Print Verif.Grammar

/-! ## Appending -/

/-- nothing is pending -/
def Clean (st : St) : Prop := st.comment = [] ∧ st.needsNL = false

/-- `st'` is `st` after appending a text with property `P` -/
def Adds (st st' : St) (P : Bytes → Prop) : Prop :=
  Clean st' ∧ (st'.bad = false → st.bad = false ∧ ∃ s, st'.out = s.reverse ++ st.out ∧ P s)

/-- not empty, and does not end with a blank -/
def EndOK (s : Bytes) : Prop := ∃ r x, s = r ++ [x] ∧ x ≠ 32

/-- bytes at the start of an expression -/
def Start (x : UInt8) : Prop := x ∉ ([61, 42, 62, 10, 32, 9, 13, 35, 92, 58] : List UInt8)

def StartOK (s : Bytes) : Prop := ∃ x r, s = x :: r ∧ Start x

theorem EndOK.app {s t : Bytes} (h : EndOK t) : EndOK (s ++ t) := by
  obtain ⟨r, x, rfl, hx⟩ := h
  exact ⟨s ++ r, x, by simp, hx⟩

theorem EndOK.cons {s : Bytes} {x : UInt8} (h : EndOK s) : EndOK (x :: s) := EndOK.app (s := [x]) h

theorem StartOK.app {s t : Bytes} (h : StartOK s) : StartOK (s ++ t) := by
  obtain ⟨x, r, rfl, hx⟩ := h
  exact ⟨x, r ++ t, rfl, hx⟩

theorem EndOK.single {x : UInt8} (h : x ≠ 32) : EndOK [x] := ⟨[], x, rfl, h⟩

theorem Adds.refl {st : St} (h : Clean st) : Adds st st (· = []) := ⟨h, fun hb => ⟨hb, [], rfl, rfl⟩⟩

theorem Adds.mono {st st' P Q} (h : Adds st st' P) (h' : ∀ s, P s → Q s) : Adds st st' Q :=
  ⟨h.1, fun hb => by obtain ⟨a, s, b, c⟩ := h.2 hb; exact ⟨a, s, b, h' s c⟩⟩

theorem Adds.bad {st st' : St} {P} (h : Clean st') (hb : st'.bad = true) : Adds st st' P := ⟨h, fun h' => by rw [hb] at h'; cases h'⟩

theorem Adds.trans {st st1 st2 P Q R} (h1 : Adds st st1 P) (h2 : Clean st1 → Adds st1 st2 Q) (h : ∀ s1 s2, P s1 → Q s2 → R (s1 ++ s2)) : Adds st st2 R := by
  have h2' := h2 h1.1
  refine ⟨h2'.1, fun hb => ?_⟩
  obtain ⟨b1, s2, e2, q2⟩ := h2'.2 hb
  obtain ⟨b0, s1, e1, q1⟩ := h1.2 b1
  exact ⟨b0, s1 ++ s2, by rw [e2, e1, List.reverse_append, List.append_assoc], h s1 s2 q1 q2⟩

theorem Adds.emit {st st1 : St} {P R : Bytes → Prop} {t : Bytes} (h1 : Adds st st1 P) (h : ∀ s, P s → R (s ++ t)) : Adds st (emit t st1) R :=
  Adds.trans h1 (fun hc => ⟨hc, fun hb => ⟨hb, t, rfl, rfl⟩⟩) (Q := (· = t)) (fun s1 s2 p q => by rw [q]; exact h s1 p)

theorem Adds.emit0 {st : St} {R : Bytes → Prop} {t : Bytes} (hc : Clean st) (h : R t) : Adds st (Print.emit t st) R :=
  (Adds.refl hc).emit (fun s e => by rw [e]; exact h)

theorem newline_clean {st : St} (h : Clean st) : newline st = emit (10 :: spaces st.margin) (trim { st with needsNL := false }) := by
  unfold newline
  dsimp only
  rw [h.1]
  rfl

theorem Adds.newline {st st1 : St} {P R : Bytes → Prop} (h1 : Adds st st1 P) (hend : ∀ s, P s → EndOK s) (h : ∀ s m, P s → R (s ++ 10 :: spaces m)) :
    Adds st (newline st1) R := by
  rw [newline_clean h1.1]
  refine ⟨⟨h1.1.1, rfl⟩, fun hb => ?_⟩
  obtain ⟨b0, s, e, p⟩ := h1.2 hb
  refine ⟨b0, s ++ 10 :: spaces st1.margin, ?_, h s _ p⟩
  show (10 :: spaces st1.margin).reverse ++ st1.out.dropWhile (· == 32) = _
  obtain ⟨r, x, rfl, hx⟩ := hend s p
  rw [e]
  have : ((r ++ [x]).reverse ++ st.out).dropWhile (· == 32) = (r ++ [x]).reverse ++ st.out := by
    rw [List.reverse_append]
    show (x :: (r.reverse ++ st.out)).dropWhile (· == 32) = _
    rw [List.dropWhile_cons, if_neg (by simpa using hx)]
    rfl
  rw [this]
  simp

/-- the text of a line break: inside brackets or escaped -/
def Brk (esc : Bool) (t : Bytes) : Prop := ∃ m, t = if esc then 32 :: 92 :: 10 :: spaces m else 10 :: spaces m

theorem Adds.breakline {st st1 : St} {P R : Bytes → Prop} (h1 : Adds st st1 P) (hend : ∀ s, P s → EndOK s)
    (h : ∀ s t, P s → Brk (decide (st1.depth = 0)) t → R (s ++ t)) : Adds st (breakline st1) R := by
  unfold Print.breakline
  by_cases hd : st1.depth = 0
  · rw [if_pos hd]
    refine h1.emit (fun s p => h s _ p ⟨st1.margin, ?_⟩)
    rw [decide_eq_true hd]
    rfl
  · rw [if_neg hd]
    refine h1.newline hend (fun s m p => h s _ p ⟨m, ?_⟩)
    rw [decide_eq_false hd]
    rfl

/-! ## Reading -/

/-- the text `s` is read as the tokens `as`, whatever the printer writes next -/
def T (b : Bool) (s : Bytes) (as : List ATok) : Prop := ∀ c, Follow c → Lx b s c as

theorem Lx.cast {b s c as as'} (h : Lx b s c as) (e : as = as') : Lx b s c as' := e ▸ h
theorem Lx.castS {b s s' c as} (h : Lx b s c as) (e : s = s') : Lx b s' c as := e ▸ h
theorem T.cast {b s as as'} (h : T b s as) (e : as = as') : T b s as' := e ▸ h
theorem T.castS {b s s' as} (h : T b s as) (e : s = s') : T b s' as := e ▸ h

/-- a token, then more -/
theorem Lx.pre {b t s c a as} (h : TextTok t (s.headD c) a) (hd : depthChange a.kind = 0) (h2 : Lx b s c as) : Lx b (t ++ s) c (a :: as) :=
  Lx.app b t s c [a] as (Lx.tok b t _ a h hd) h2

/-- a blank, then more -/
theorem Lx.sp {b s c as} (h : Lx b s c as) : Lx b (32 :: s) c as := Lx.app b [32] s c [] as (Lx.space ..) h

/-- a text, then more -/
theorem Lx.appT {b s1 s2 c as1 as2} (h1 : T b s1 as1) (hf : Follow (s2.headD c)) (h2 : Lx b s2 c as2) : Lx b (s1 ++ s2) c (as1 ++ as2) :=
  Lx.app b s1 s2 c as1 as2 (h1 _ hf) h2

theorem lx_spaces (b : Bool) (n : Nat) (c : UInt8) : Lx b (spaces n) c [] := by
  induction n with
  | zero => exact Lx.nil ..
  | succ n ih => exact Lx.sp ih

theorem lx_spaces_app {b : Bool} {s c as} (n : Nat) (h : Lx b s c as) : Lx b (spaces n ++ s) c as := by
  induction n with
  | zero => exact h
  | succ n ih => exact Lx.sp ih

theorem lx_nl {s c as} (m : Nat) (h : Lx true s c as) : Lx true (10 :: (spaces m ++ s)) c as :=
  Lx.app true [10] (spaces m ++ s) c [] as (Lx.newline _) (lx_spaces_app m h)

theorem lx_esc {b s c as} (m : Nat) (h : Lx b s c as) : Lx b (32 :: 92 :: 10 :: (spaces m ++ s)) c as :=
  Lx.sp (Lx.app b [92, 10] (spaces m ++ s) c [] as (Lx.cont ..) (lx_spaces_app m h))

theorem lx_brk {b esc : Bool} {t s c as} (hb : b = false → esc = true) (ht : Brk esc t) (h : Lx b s c as) : Lx b (t ++ s) c as := by
  obtain ⟨m, rfl⟩ := ht
  cases esc with
  | true => exact lx_esc m h
  | false =>
    cases b with
    | false => cases hb rfl
    | true => exact lx_nl m h

theorem brk_head {esc : Bool} {t s : Bytes} {c : UInt8} (ht : Brk esc t) : Follow ((t ++ s).headD c) := by
  obtain ⟨m, rfl⟩ := ht
  cases esc
  · show Follow 10; unfold Follow; decide
  · show Follow 32; unfold Follow; decide

/-- the text `s` reads as tokens with property `P` -/
def YP (b : Bool) (P : List ATok → Prop) (s : Bytes) : Prop := StartOK s ∧ EndOK s ∧ ∃ as, T b s as ∧ P as

/-- `Y b x R s`: the text `s` reads as something of class `x` with value in `R`. -/
abbrev Y (b : Bool) (x : FNT) (R : Parser.Val → Prop) (s : Bytes) : Prop := YP b (fun as => Gen as (.n x) R) s

theorem YP.mono {b P Q s} (h : YP b P s) (h' : ∀ as, P as → Q as) : YP b Q s := by
  obtain ⟨h1, h2, as, h3, h4⟩ := h
  exact ⟨h1, h2, as, h3, h' as h4⟩

/-! ## Lists -/

inductive All2 {α β : Type} (r : α → β → Prop) : List α → List β → Prop
  | nil : All2 r [] []
  | cons (x y l l') : r x y → All2 r l l' → All2 r (x :: l) (y :: l')

theorem All2.length {α β : Type} {r : α → β → Prop} {l l'} (h : All2 r l l') : l.length = l'.length := by
  induction h with
  | nil => rfl
  | cons _ _ _ _ _ _ ih => simp [ih]

def comma : ATok := W 44 b!","

def joinC : List (List ATok) → List ATok
  | [] => []
  | [a] => a
  | a :: b :: l => a ++ comma :: joinC (b :: l)

theorem joinC_cons (a : List ATok) (l : List (List ATok)) : joinC (a :: l) = a ++ l.flatMap (comma :: ·) := by
  induction l generalizing a with
  | nil => simp [joinC]
  | cons b l ih => rw [joinC, ih]; simp

/-- how a list with commas is derived from its elements -/
structure Lst (elem : Expr → List ATok → Prop) (lst : List Expr → List ATok → Prop) : Prop where
  one : ∀ x as, elem x as → lst [x] as
  snoc : ∀ l as x a, l ≠ [] → lst l as → elem x a → lst (l ++ [x]) (as ++ (comma :: a))

theorem Lst.join {elem lst} (L : Lst elem lst) {l ass} (h : All2 elem l ass) (hl : l ≠ []) : lst l (joinC ass) := by
  cases h with
  | nil => exact absurd rfl hl
  | cons x a l ass hx h =>
    rw [joinC_cons]
    have key : ∀ (l : List Expr) (ass : List (List ATok)) (done : List Expr) (acc : List ATok), All2 elem l ass → done ≠ [] → lst done acc →
        lst (done ++ l) (acc ++ ass.flatMap (comma :: ·)) := by
      intro l ass done acc h
      induction h generalizing done acc with
      | nil => intro _ hd; simpa using hd
      | cons x a l ass hx _ ih =>
        intro hn hd
        have := ih (done ++ [x]) (acc ++ comma :: a) (by simp) (L.snoc _ _ _ _ hn hd hx)
        simpa using this
    exact key l ass [x] a h (by simp) (L.one _ _ hx)

/-- what is known about a printed element -/
def El (b : Bool) (elem : Expr → List ATok → Prop) (x : Expr) (s : Bytes) : Prop := EndOK s ∧ ∃ as, T b s as ∧ elem x as

theorem follow32 : Follow 32 := by unfold Follow; decide
theorem follow10 : Follow 10 := by unfold Follow; decide
theorem follow44 : Follow 44 := by unfold Follow; decide
theorem follow41 : Follow 41 := by unfold Follow; decide
theorem follow93 : Follow 93 := by unfold Follow; decide
theorem follow125 : Follow 125 := by unfold Follow; decide
theorem follow58 : Follow 58 := by unfold Follow; decide
theorem follow46 : Follow 46 := by unfold Follow; decide
theorem follow40 : Follow 40 := by unfold Follow; decide
theorem follow91 : Follow 91 := by unfold Follow; decide

theorem lx_comma {b s c as} (h : Lx b s c as) : Lx b (44 :: s) c (comma :: as) := Lx.pre (t := b!",") (tok_single (by decide) _) (by decide) h
theorem lx_colon {b s c as} (h : Lx b s c as) : Lx b (58 :: s) c (W 58 b!":" :: as) := Lx.pre (t := b!":") (tok_single (by decide) _) (by decide) h

section
variable {pr : Pr} {b : Bool} {elem : Expr → List ATok → Prop} {d : Nat}

theorem compact_rest {l : List Expr} (hx : ∀ x ∈ l, ∀ st, Clean st → st.depth = d → Adds st (pr x 0 st) (El b elem x)) (hk : ∀ e o st, Keep st (pr e o st)) :
    ∀ st, Clean st → st.depth = d → Adds st (compactElems pr false l st) (fun s => (l = [] ∧ s = [] ∨ EndOK s ∧ ∃ r, s = 44 :: r) ∧
      ∃ ass, All2 elem l ass ∧ T b s (ass.flatMap (comma :: ·))) := by
  induction l with
  | nil => intro st hc _; exact (Adds.refl hc).mono (fun s e => ⟨.inl ⟨rfl, e⟩, [], .nil, fun c _ => by rw [e]; exact Lx.nil ..⟩)
  | cons x l ih =>
    intro st hc hd
    have h0 : Adds st (emit b!", " st) (· = b!", ") := Adds.emit0 hc rfl
    have h1 : Adds st (pr x 0 (emit b!", " st)) (fun s => ∃ s', s = 44 :: 32 :: s' ∧ El b elem x s') :=
      h0.trans (fun h => hx x (by simp) _ h hd) (by rintro _ s2 rfl q; exact ⟨s2, rfl, q⟩)
    refine h1.trans (fun h => ih (fun y hy => hx y (by simp [hy])) _ h (((hk _ _ _).1).trans hd)) ?_
    rintro _ s2 ⟨s', rfl, he, as, ht, hel⟩ ⟨h3, ass, h4, h5⟩
    have hfol : ∀ c, Follow c → Follow (s2.headD c) := by
      intro c hc
      rcases h3 with ⟨_, rfl⟩ | ⟨_, r, rfl⟩
      · exact hc
      · exact follow44
    refine ⟨.inr ⟨?_, _, rfl⟩, as :: ass, .cons _ _ _ _ hel h4, fun c hc => ?_⟩
    · rcases h3 with ⟨_, rfl⟩ | ⟨h, _⟩
      · rw [List.append_nil]; exact he.cons.cons
      · exact h.app
    · have := lx_comma (Lx.sp (Lx.appT ht (hfol c hc) (h5 c hc)))
      simpa using this

theorem compact_spec {l : List Expr} {Q : Bytes → Prop} (hQ : ∀ s t, Q s → Q (s ++ t)) (hl : l ≠ [])
    (hx : ∀ x ∈ l, ∀ st, Clean st → st.depth = d → Adds st (pr x 0 st) (fun s => Q s ∧ El b elem x s))
    (hk : ∀ e o st, Keep st (pr e o st)) (st : St) (hc : Clean st) (hd : st.depth = d) :
    Adds st (compactElems pr true l st) (fun s => Q s ∧ EndOK s ∧ ∃ ass, All2 elem l ass ∧ T b s (joinC ass)) := by
  cases l with
  | nil => exact absurd rfl hl
  | cons x l =>
    refine (hx x (by simp) st hc hd).trans (fun h => compact_rest (fun y hy st hc hd => (hx y (by simp [hy]) st hc hd).mono (fun _ h => h.2)) hk _ h
      (((hk _ _ _).1).trans hd)) ?_
    rintro s s2 ⟨hs, he, as, ht, hel⟩ ⟨h3, ass, h4, h5⟩
    have hfol : ∀ c, Follow c → Follow (s2.headD c) := by
      intro c hc
      rcases h3 with ⟨_, rfl⟩ | ⟨_, r, rfl⟩
      · exact hc
      · exact follow44
    refine ⟨hQ _ _ hs, ?_, as :: ass, .cons _ _ _ _ hel h4, fun c hc => ?_⟩
    · rcases h3 with ⟨_, rfl⟩ | ⟨h, _⟩
      · rw [List.append_nil]; exact he
      · exact h.app
    · rw [joinC_cons]
      exact Lx.appT ht (hfol c hc) (h5 c hc)

/-- a trailing comma -/
def tcomma (tc : Bool) : List ATok := if tc then [comma] else []

theorem multi_spec {m : Mode} {l : List Expr} {first : Bool} (hx : ∀ x ∈ l, ∀ st, Clean st → st.depth = d → Adds st (pr x 0 st) (El true elem x))
    (hk : ∀ e o st, Keep st (pr e o st)) : ∀ {st0 st : St} {P : Bytes → Prop}, Adds st0 st P → (∀ s, P s → EndOK s) → st.depth = d →
    Adds st0 (multiElems pr m first l st) (fun s => ∃ s1 s2, s = s1 ++ s2 ∧ P s1 ∧ EndOK s ∧ ∃ ass tc, All2 elem l ass ∧ T true s2 (joinC ass ++ tcomma tc) ∧
      (l = [] → tc = false ∧ s2 = []) ∧ (m = .paren ∨ m = .def_ → tc = false) ∧ (m = .tuple → l ≠ [] → tc = true) ∧ (l ≠ [] → ∃ r, s2 = 10 :: r)) := by
  induction l generalizing first with
  | nil =>
    intro st0 st P h hp _
    refine h.mono (fun s p => ⟨s, [], by simp, p, hp s p, [], false, .nil, fun c _ => Lx.nil .., fun _ => ⟨rfl, rfl⟩, fun _ => rfl, ?_, ?_⟩)
    · intro _ h; exact absurd rfl h
    · intro h; exact absurd rfl h
  | cons x l ih =>
    intro st0 st P h hp hd
    have hif : (if first && !st.comment.isEmpty then emit (10 :: spaces (st.margin - 2)) st else st) = st := by
      rw [h.1.1]; simp
    unfold multiElems
    dsimp only
    rw [hif]
    have h1 : Adds st0 (newline st) (fun s => ∃ s1 k, s = s1 ++ 10 :: spaces k ∧ P s1) :=
      h.newline hp (fun s k p => ⟨s, k, rfl, p⟩)
    have hd1 : (newline st).depth = d := ((keep_newline st).1).trans hd
    have h2 : Adds st0 (pr x 0 (newline st)) (fun s => ∃ s1 k s', s = s1 ++ 10 :: (spaces k ++ s') ∧ P s1 ∧ El true elem x s') :=
      h1.trans (fun hc => hx x (by simp) _ hc hd1) (by rintro _ s2 ⟨s1, k, rfl, p⟩ q; exact ⟨s1, k, s2, by simp, p, q⟩)
    cases hc : (!l.isEmpty || needsTrailingComma m x) with
    | false =>
      have hl : l = [] := by
        simp only [Bool.or_eq_false_iff, Bool.not_eq_false'] at hc
        simpa using hc.1
      subst hl
      simp only [Bool.false_eq_true, if_false]
      show Adds st0 (pr x 0 (newline st)) _
      refine h2.mono ?_
      rintro _ ⟨s1, k, s', rfl, p, he, as, ht, hel⟩
      refine ⟨s1, 10 :: (spaces k ++ s'), rfl, p, EndOK.app (EndOK.cons (EndOK.app he)), [as], false, .cons _ _ _ _ hel .nil, fun c hc => ?_, ?_, fun _ => rfl, ?_, fun _ => ⟨_, rfl⟩⟩
      · have := lx_nl k (ht c hc)
        simpa [joinC, tcomma] using this
      · intro h; cases h
      · rintro rfl _
        cases hc
    | true =>
      simp only [if_true]
      have h3 : Adds st0 (emit b!"," (pr x 0 (newline st))) (fun s => ∃ s1 k s', s = s1 ++ 10 :: (spaces k ++ (s' ++ [44])) ∧ P s1 ∧ El true elem x s') :=
        h2.emit (by rintro _ ⟨s1, k, s', rfl, p, q⟩; exact ⟨s1, k, s', by simp, p, q⟩)
      have h4 := ih (first := false) (fun y hy => hx y (by simp [hy])) h3
        (by rintro _ ⟨s1, k, s', rfl, p, q⟩; exact EndOK.app (EndOK.cons (EndOK.app (EndOK.app (EndOK.single (by decide))))))
        (show (pr x 0 (newline st)).depth = d from ((hk _ _ _).1).trans hd1)
      refine h4.mono ?_
      rintro _ ⟨_, s2, rfl, ⟨s1, k, s', rfl, p, he, as, ht, hel⟩, hend, ass, tc, h5, h6, h7, h8, h9, h10⟩
      have hl : l = [] → ass = [] := by
        rintro rfl; cases h5; rfl
      by_cases hn : l = []
      · obtain rfl := hl hn
        obtain ⟨rfl, rfl⟩ := h7 hn
        refine ⟨s1, 10 :: (spaces k ++ (s' ++ [44])), by simp, p, hend, [as], true, ?_, fun c hc => ?_, ?_, ?_, fun _ _ => rfl, fun _ => ⟨_, rfl⟩⟩
        · subst hn; exact .cons _ _ _ _ hel .nil
        · have := lx_nl k (Lx.appT ht (s2 := [44]) (c := c) follow44 (lx_comma (Lx.nil true c)))
          simpa [joinC, tcomma] using this
        · intro h; cases h
        · intro hm
          subst hn
          simp only [List.isEmpty_nil, Bool.not_true, Bool.false_or] at hc
          rcases hm with rfl | rfl <;> simp [needsTrailingComma] at hc
      · refine ⟨s1, 10 :: (spaces k ++ (s' ++ (44 :: s2))), by simp, p, hend, as :: ass, tc, .cons _ _ _ _ hel h5, fun c hc => ?_, ?_, h8, fun hm _ => h9 hm hn, fun _ => ⟨_, rfl⟩⟩
        · have := lx_nl k (Lx.appT ht (s2 := 44 :: s2) (c := c) follow44 (lx_comma (h6 c hc)))
          refine this.cast ?_
          cases ass with
          | nil => cases h5; exact absurd rfl hn
          | cons a ass => simp [joinC]
        · intro h; cases h

/-- the tokens between the brackets of a sequence -/
def SeqAll (elem : Expr → List ATok → Prop) (m : Mode) (l : List Expr) (as : List ATok) : Prop :=
  ∃ ass tc, All2 elem l ass ∧ as = joinC ass ++ tcomma tc ∧ (l = [] → tc = false) ∧ (m = .paren ∨ m = .def_ → tc = false) ∧
    (m = .tuple → l.length = 1 → tc = true)

/-- the text between the brackets of a sequence -/
structure Seq (elem : Expr → List ATok → Prop) (m : Mode) (l : List Expr) (s : Bytes) (as : List ATok) : Prop where
  all : SeqAll elem m l as
  lex : T true s as

theorem seq_spec {ft : FileType} {o c : UInt8} {start : Pos} {l : List Expr} {e : Option EndN} {m : Mode} {fc fm : Bool} (hm : m ≠ .seq)
    (ho : o = 40 ∨ o = 91 ∨ o = 123) (hnil : ∀ x ∈ l, x.isNil = false) (hend : ∀ en, e = some en → en.comments = {})
    (hx : ∀ x ∈ l, ∀ st, Clean st → Adds st (pr x 0 st) (El true elem x)) (hk : ∀ e o st, Keep st (pr e o st)) (st : St) (hc : Clean st) :
    Adds st (seq ft pr [o] [c] start l e m fc fm st) (fun s => ∃ s1 as, s = o :: (s1 ++ [c]) ∧ Seq elem m l s1 as) := by
  rw [seq_eq]
  have hfil : l.filter (fun x => !x.isNil) = l := List.filter_eq_self.2 (fun x hx => by simp [hnil x hx])
  rw [hfil]
  have hopen : Adds st (seqOpen m [o] st) (· = [o]) := by
    unfold seqOpen; rw [if_neg hm]
    exact Adds.emit0 hc rfl
  have ho32 : o ≠ 32 := by rcases ho with rfl | rfl | rfl <;> decide
  have hclose : ∀ st2 : St, Adds st st2 (fun s => ∃ s1 as, s = o :: s1 ∧ Seq elem m l s1 as) →
      Adds st (seqClose m [c] st2) (fun s => ∃ s1 as, s = o :: (s1 ++ [c]) ∧ Seq elem m l s1 as) := by
    intro st2 h
    unfold seqClose; rw [if_neg hm]
    have h' : Adds st { st2 with depth := st2.depth - 1 } (fun s => ∃ s1 as, s = o :: s1 ∧ Seq elem m l s1 as) := h
    exact h'.emit (by rintro _ ⟨s1, as, rfl, h⟩; exact ⟨s1, as, rfl, h⟩)
  apply hclose
  split
  · -- compact
    unfold seqCompact
    dsimp only
    by_cases hl : l = []
    · subst hl
      rw [if_neg (by rintro ⟨h, _⟩; simp at h)]
      refine hopen.mono ?_
      rintro _ rfl
      exact ⟨[], [], rfl, ⟨[], false, .nil, rfl, fun _ => rfl, fun _ => rfl, fun _ h => by simp at h⟩, fun c _ => Lx.nil ..⟩
    · have h1 : Adds st (compactElems pr true l (seqOpen m [o] st)) (fun s => ∃ s1, s = o :: s1 ∧ True ∧ EndOK s1 ∧ ∃ ass, All2 elem l ass ∧ T true s1 (joinC ass)) :=
        hopen.trans (fun hc' => compact_spec (Q := fun _ => True) (fun _ _ _ => trivial) hl (fun x hxm st hst _ => (hx x hxm st hst).mono (fun _ h => ⟨trivial, h⟩)) hk _ hc' rfl) (by
          rintro _ s2 rfl ⟨a, b, h⟩; exact ⟨s2, rfl, a, b, h⟩)
      by_cases h2 : l.length = 1 ∧ m = .tuple
      · rw [if_pos h2]
        refine h1.emit ?_
        rintro _ ⟨s1, rfl, _, he, ass, h3, h4⟩
        refine ⟨s1 ++ [44], joinC ass ++ tcomma true, rfl, ⟨ass, true, h3, rfl, fun h => absurd h hl, ?_, fun _ _ => rfl⟩, fun c hc => ?_⟩
        · rintro (h | h) <;> (rw [h2.2] at h; cases h)
        · exact Lx.appT h4 (s2 := [44]) (c := c) follow44 (lx_comma (Lx.nil true c))
      · rw [if_neg h2]
        refine h1.mono ?_
        rintro _ ⟨s1, rfl, _, he, ass, h3, h4⟩
        refine ⟨s1, joinC ass, rfl, ⟨ass, false, h3, by simp [tcomma], fun _ => rfl, fun _ => rfl, fun hm hl => absurd ⟨hl, hm⟩ h2⟩, h4⟩
  · -- multi-line
    unfold seqMulti
    dsimp only
    have hE : ∀ st1 : St, seqEnd e st1 = st1 := by
      intro st1
      unfold seqEnd
      cases e with
      | none => rfl
      | some en => simp only; rw [hend en rfl]; rfl
    rw [hE]
    generalize (if m = Mode.def_ then defIndentation else listIndentation) = ind
    have h0 : Adds st { seqOpen m [o] st with margin := (seqOpen m [o] st).margin + ind } (· = [o]) := hopen
    have h1 := multi_spec (m := m) (first := true) (d := (seqOpen m [o] st).depth) (fun x hxm st hst _ => hx x hxm st hst) hk h0 (by rintro _ rfl; exact EndOK.single ho32) rfl
    by_cases hdef : m = .def_
    · rw [if_pos hdef]
      refine h1.mono ?_
      rintro _ ⟨_, s2, rfl, rfl, hend, ass, tc, h3, h4, h5, h6, h7, h8⟩
      exact ⟨s2, _, rfl, ⟨ass, tc, h3, rfl, fun h => (h5 h).1, h6, fun h => by rw [hdef] at h; cases h⟩, h4⟩
    · rw [if_neg hdef]
      refine Adds.newline (st1 := { multiElems pr m true l { seqOpen m [o] st with margin := (seqOpen m [o] st).margin + ind } with
        margin := (multiElems pr m true l { seqOpen m [o] st with margin := (seqOpen m [o] st).margin + ind }).margin - ind }) h1 ?_ ?_
      · rintro _ ⟨_, s2, rfl, rfl, hend, _⟩; exact hend
      · rintro _ k ⟨_, s2, rfl, rfl, hend, ass, tc, h3, h4, h5, h6, h7, h8⟩
        refine ⟨s2 ++ 10 :: spaces k, _, by simp, ⟨ass, tc, h3, rfl, fun h => (h5 h).1, h6, fun h hl => h7 h (by rintro rfl; simp at hl)⟩, fun c hc => ?_⟩
        have := Lx.appT h4 (s2 := 10 :: (spaces k ++ [])) (c := c) follow10 (lx_nl k (Lx.nil true c))
        simpa using this

end

end Verif.Round
