import Verif.Model.Skylark
import Verif.Proofs.MapE
import Verif.Props.DictItems
/-
C77: replacing "skylark" in comments and docstrings.
-/
namespace Verif.Skylark
open Verif Verif.Syntax Verif.Walk

/-! ### specification -/

/-- the ways to write a letter: lower case, upper case, and two letters that only Unicode's case folding equates -/
inductive Letter : UInt8 → Bytes → Prop
  | lower (c) : Letter c [c]
  | upper (c) : Letter c [c - 32]
  | longS : Letter c!"s" b!"ſ"
  | kelvin : Letter c!"k" [0xE2, 0x84, 0xAA]

/-- the text is the word, in any case -/
inductive Spells : Bytes → Bytes → Prop
  | nil : Spells [] []
  | cons {c m w t} : Letter c m → Spells w t → Spells (c :: w) (m ++ t)

/-- the occurrence of the word between `a` and `b` is to be replaced, as the code sees it: it does not come after a slash, and the byte after the next
one is no slash -/
def Wanted (a b : Bytes) : Prop := (¬ ∃ x, a = x ++ b!"/") ∧ (¬ ∃ x t, b = x :: c!"/" :: t)

/-- the new name, in a similar case -/
def Renamed (m t : Bytes) : Prop :=
  (m = b!"SKYLARK" ∧ t = b!"STARLARK") ∨ (m ≠ b!"SKYLARK" ∧ (∃ x, m = c!"S" :: x) ∧ t = b!"Starlark") ∨
  ((¬ ∃ x, m = c!"S" :: x) ∧ t = b!"starlark")

/-! ### the regular expression -/

theorem eatLetter_iff (c : UInt8) (s r : Bytes) : eatLetter c s = some r ↔ ∃ m, Letter c m ∧ s = m ++ r := by
  constructor
  · intro h
    unfold eatLetter at h
    split at h
    next b r' =>
      split at h
      next hc =>
        cases h
        rcases hc with rfl | hc
        · exact ⟨_, .lower b, rfl⟩
        · refine ⟨_, .upper c, ?_⟩
          rw [← hc]
          simp [UInt8.add_sub_cancel]
      next hc =>
        split at h
        · split at h
          next hs => cases h; subst hs; exact ⟨_, .longS, rfl⟩
          next => cases h
        · split at h
          next hs => cases h; subst hs; exact ⟨_, .kelvin, rfl⟩
          next => cases h
        · cases h
    next => cases h
  · rintro ⟨m, hm, rfl⟩
    cases hm with
    | lower => simp [eatLetter]
    | upper => simp [eatLetter]
    | longS => rfl
    | kelvin => rfl

theorem eat_iff (w s r : Bytes) : eat w s = some r ↔ ∃ m, Spells w m ∧ s = m ++ r := by
  induction w generalizing s with
  | nil =>
    simp only [eat, Option.some.injEq]
    constructor
    · rintro rfl; exact ⟨[], .nil, rfl⟩
    · rintro ⟨m, hm, rfl⟩; cases hm; rfl
  | cons c w ih =>
    simp only [eat, Option.bind_eq_some_iff, eatLetter_iff, ih]
    constructor
    · rintro ⟨s', ⟨m, hm, rfl⟩, t, ht, rfl⟩
      exact ⟨m ++ t, .cons hm ht, by simp⟩
    · rintro ⟨m, hm, rfl⟩
      cases hm with
      | @cons _ m' _ t h1 h2 => exact ⟨t ++ r, ⟨m', h1, by simp⟩, t, h2, rfl⟩

theorem spells_nonempty {c : UInt8} {w m : Bytes} (h : Spells (c :: w) m) : ∃ x t, m = x :: t := by
  cases h with
  | cons h1 h2 => cases h1 <;> exact ⟨_, _, rfl⟩

def startByte (b : UInt8) : Bool := b == c!"s" || b == c!"S" || b == 0xC5

theorem letter_head {b : UInt8} {m : Bytes} (h : Letter c!"s" m) : (∃ x, m = b :: x) → startByte b = true := by
  rintro ⟨x, rfl⟩
  generalize hc : c!"s" = c at h
  cases h with
  | lower => subst hc; rfl
  | upper => subst hc; rfl
  | longS => rfl
  | kelvin => cases hc

theorem letter_tail {c : UInt8} {m : Bytes} (h : Letter c m) (hc : c ∈ b!"kylar") : ∀ b ∈ m, startByte b = false := by
  simp only [List.mem_cons, List.not_mem_nil, or_false] at hc
  cases h with
  | lower => intro b hb; simp at hb; subst hb; rcases hc with rfl | rfl | rfl | rfl | rfl <;> rfl
  | upper => intro b hb; simp at hb; subst hb; rcases hc with rfl | rfl | rfl | rfl | rfl <;> rfl
  | longS => simp at hc
  | kelvin => intro b hb; simp at hb; rcases hb with rfl | rfl | rfl <;> rfl

theorem letterS_tail {m : Bytes} (h : Letter c!"s" m) : ∀ b ∈ m.tail, startByte b = false := by
  generalize hc : c!"s" = c at h
  cases h with
  | lower => simp
  | upper => simp
  | longS => intro b hb; simp at hb; subst hb; rfl
  | kelvin => cases hc

theorem spells_word {w m : Bytes} (h : Spells w m) (hw : ∀ c ∈ w, c ∈ b!"kylar") : ∀ b ∈ m, startByte b = false := by
  induction h with
  | nil => simp
  | cons h1 h2 ih =>
    intro b hb
    rcases List.mem_append.1 hb with hb | hb
    · exact letter_tail h1 (hw _ List.mem_cons_self) b hb
    · exact ih (fun c hc => hw c (List.mem_cons_of_mem _ hc)) b hb

/-- the first byte of an occurrence tells it from all others -/
theorem spells_start {m : Bytes} (h : Spells b!"skylark" m) : ∃ x t, m = x :: t ∧ startByte x = true ∧ ∀ b ∈ t, startByte b = false := by
  cases h with
  | @cons _ m' _ t h1 h2 =>
    have ht := spells_word h2 (by decide)
    have htl := letterS_tail h1
    have hhd := @letter_head
    cases m' with
    | nil => exact absurd h1 (by intro h; cases h)
    | cons x y =>
      refine ⟨x, y ++ t, rfl, hhd h1 ⟨y, rfl⟩, ?_⟩
      intro b hb
      rcases List.mem_append.1 hb with hb | hb
      · exact htl b hb
      · exact ht b hb

theorem eat_unique {s m1 r1 m2 r2 : Bytes} (h1 : Spells b!"skylark" m1) (e1 : s = m1 ++ r1) (h2 : Spells b!"skylark" m2) (e2 : s = m2 ++ r2) :
    m1 = m2 ∧ r1 = r2 := by
  have a := (eat_iff b!"skylark" s r1).2 ⟨m1, h1, e1⟩
  have b := (eat_iff b!"skylark" s r2).2 ⟨m2, h2, e2⟩
  rw [a] at b
  cases b
  exact ⟨List.append_cancel_right (e1.symm.trans e2), rfl⟩

/-- an occurrence after the start of another one begins after its end -/
theorem no_overlap {s m r a m' r' : Bytes} (h : Spells b!"skylark" m) (e : s = m ++ r) (h' : Spells b!"skylark" m') (e' : s = a ++ m' ++ r')
    (ha : a ≠ []) : ∃ d, a = m ++ d ∧ r = d ++ m' ++ r' := by
  obtain ⟨x, t, rfl, hx, ht⟩ := spells_start h
  obtain ⟨x', t', rfl, hx', ht'⟩ := spells_start h'
  rw [e, List.append_assoc] at e'
  rcases List.append_eq_append_iff.1 e' with ⟨d, h1, h2⟩ | ⟨d, h1, h2⟩
  · exact ⟨d, h1, by rw [h2]; simp⟩
  · cases d with
    | nil => exact ⟨[], by simpa using h1.symm, by simpa using h2.symm⟩
    | cons y d =>
      exfalso
      simp only [List.cons_append, List.cons.injEq] at h2
      cases a with
      | nil => exact ha rfl
      | cons z a =>
        simp only [List.cons_append, List.cons.injEq] at h1
        have : y ∈ t := by rw [h1.2]; simp
        have := ht y this
        rw [← h2.1, hx'] at this
        cases this

/-- the matches, from left to right -/
theorem findAllN_iff (n pos : Nat) (s : Bytes) (hn : s.length < n) (i j : Nat) : (i, j) ∈ findAllN n pos s ↔
    ∃ a m b, s = a ++ m ++ b ∧ Spells b!"skylark" m ∧ i = pos + a.length ∧ j = pos + a.length + m.length := by
  induction n generalizing pos s with
  | zero => omega
  | succ n ih =>
    cases s with
    | nil =>
      simp only [findAllN, List.not_mem_nil, false_iff]
      rintro ⟨a, m, b, h, hm, _⟩
      obtain ⟨x, t, rfl⟩ := spells_nonempty hm
      simp at h
    | cons c s =>
      simp only [findAllN]
      split
      next r hr =>
        obtain ⟨m, hm, hs⟩ := (eat_iff _ _ _).1 hr
        have hlen : (c :: s).length - r.length = m.length := by rw [hs]; simp
        obtain ⟨x, t, hmx⟩ := spells_nonempty hm
        have hpos : 0 < m.length := by rw [hmx]; simp
        have hrl : r.length < n := by
          have := congrArg List.length hs
          simp at this hn; omega
        rw [hlen, List.mem_cons, ih _ r hrl]
        constructor
        · rintro (h | ⟨a, m', b, rfl, hm', h1, h2⟩)
          · cases h
            exact ⟨[], m, r, by simpa using hs, hm, by simp, by simp⟩
          · refine ⟨m ++ a, m', b, by rw [hs]; simp, hm', ?_, ?_⟩ <;> simp <;> omega
        · rintro ⟨a, m', b, h, hm', rfl, rfl⟩
          by_cases ha : a = []
          · subst ha
            obtain ⟨rfl, rfl⟩ := eat_unique hm hs hm' (by simpa using h)
            left; simp
          · obtain ⟨d, rfl, rfl⟩ := no_overlap hm hs hm' h ha
            right
            refine ⟨d, m', b, rfl, hm', ?_, ?_⟩ <;> simp <;> omega
      next hr =>
        rw [ih _ s (by simp at hn; omega)]
        constructor
        · rintro ⟨a, m, b, rfl, hm, h1, h2⟩
          refine ⟨c :: a, m, b, rfl, hm, ?_, ?_⟩ <;> simp <;> omega
        · rintro ⟨a, m, b, h, hm, h1, h2⟩
          cases a with
          | nil =>
            have := (eat_iff b!"skylark" (c :: s) b).2 ⟨m, hm, by simpa using h⟩
            rw [hr] at this; cases this
          | cons z a =>
            simp only [List.cons_append, List.cons.injEq] at h
            refine ⟨a, m, b, h.2, hm, ?_, ?_⟩ <;> simp at h1 h2 <;> omega

theorem findAllN_sorted (n pos : Nat) (s : Bytes) : (findAllN n pos s).Pairwise (fun x y => x.1 < y.1) ∧ ∀ x ∈ findAllN n pos s, pos ≤ x.1 := by
  induction n generalizing pos s with
  | zero => simp [findAllN]
  | succ n ih =>
    cases s with
    | nil => simp [findAllN]
    | cons c s =>
      simp only [findAllN]
      split
      next r hr =>
        obtain ⟨m, hm, hs⟩ := (eat_iff _ _ _).1 hr
        have hlen : (c :: s).length - r.length = m.length := by rw [hs]; simp
        obtain ⟨x, t, hmx⟩ := spells_nonempty hm
        have hpos : 0 < m.length := by rw [hmx]; simp
        obtain ⟨h1, h2⟩ := ih (pos + ((c :: s).length - r.length)) r
        rw [List.pairwise_cons]
        refine ⟨⟨fun y hy => ?_, h1⟩, fun y hy => ?_⟩
        · have := h2 y hy
          simp only; omega
        · rcases List.mem_cons.1 hy with rfl | hy
          · simp
          · have := h2 y hy; omega
      next hr =>
        obtain ⟨h1, h2⟩ := ih (pos + 1) s
        exact ⟨h1, fun y hy => by have := h2 y hy; omega⟩

theorem findAll_iff (s : Bytes) (i j : Nat) : (i, j) ∈ findAll s ↔
    ∃ a m b, s = a ++ m ++ b ∧ Spells b!"skylark" m ∧ i = a.length ∧ j = a.length + m.length := by
  rw [findAll, findAllN_iff _ 0 s (Nat.lt_succ_self _)]
  simp

/-! ### the replacement -/

theorem leaveAlone_iff (a m b : Bytes) : leaveAlone (a ++ m ++ b) (a.length, a.length + m.length) = false ↔ Wanted a b := by
  unfold leaveAlone Wanted
  rw [Bool.or_eq_false_iff]
  refine and_congr ?_ ?_
  · rw [← Bool.not_eq_true, Bool.and_eq_true, decide_eq_true_eq, beq_iff_eq]; apply not_congr
    constructor
    · rintro ⟨h, hg⟩
      refine ⟨a.take (a.length - 1), ?_⟩
      rw [List.append_assoc, List.getElem?_append_left (by omega)] at hg
      have hdrop : a.drop (a.length - 1) = [c!"/"] := by
        obtain ⟨hlt, hx⟩ := List.getElem?_eq_some_iff.1 hg
        rw [List.drop_eq_getElem_cons hlt, hx, List.drop_of_length_le (by omega)]
      rw [← hdrop, List.take_append_drop]
    · rintro ⟨x, rfl⟩
      refine ⟨by simp, ?_⟩
      simp
  · rw [← Bool.not_eq_true, Bool.and_eq_true, decide_eq_true_eq, beq_iff_eq]; apply not_congr
    constructor
    · rintro ⟨h, hg⟩
      rw [List.getElem?_append_right (by simp only [List.length_append]; omega)] at hg
      rw [show a.length + m.length + 1 - (a ++ m).length = 1 by simp only [List.length_append]; omega] at hg
      match b, hg with
      | x :: y :: t, hg =>
        simp at hg; subst hg
        exact ⟨x, t, rfl⟩
    · rintro ⟨x, t, rfl⟩
      refine ⟨by simp; omega, ?_⟩
      rw [List.getElem?_append_right (by simp only [List.length_append]; omega)]
      rw [show a.length + m.length + 1 - (a ++ m).length = 1 by simp only [List.length_append]; omega]
      rfl

theorem foldlM_filter (s cur : Bytes) (L : List (Nat × Nat)) :
    L.foldlM (step s) cur = (L.filter fun r => !leaveAlone s r).foldlM (step s) cur := by
  induction L generalizing cur with
  | nil => rfl
  | cons r L ih =>
    by_cases h : leaveAlone s r = true
    · simp only [List.foldlM_cons, List.filter_cons, h, Bool.not_true, Bool.false_eq_true, if_false]
      rw [← ih, step, if_pos h]; rfl
    · have h' : leaveAlone s r = false := by simpa using h
      simp only [List.filter_cons, h', Bool.not_false, if_true, List.foldlM_cons]
      congr 1
      funext c
      exact ih c

theorem single_of_sorted {L : List (Nat × Nat)} {r : Nat × Nat} (hs : L.Pairwise fun x y => x.1 < y.1) (hr : r ∈ L) (hu : ∀ x ∈ L, x = r) : L = [r] := by
  cases L with
  | nil => simp at hr
  | cons a L =>
    have ha := hu a List.mem_cons_self
    subst ha
    cases L with
    | nil => rfl
    | cons b L =>
      have := hu b (by simp)
      subst this
      have := (List.pairwise_cons.1 hs).1 b List.mem_cons_self
      omega

theorem toStarlark_renamed (m : Bytes) : Renamed m (toStarlark m) := by
  unfold toStarlark Renamed
  by_cases h1 : m = b!"SKYLARK"
  · rw [if_pos h1]; exact .inl ⟨h1, rfl⟩
  · rw [if_neg h1]
    by_cases h2 : hasPrefix m b!"S" = true
    · rw [if_pos h2]
      simp only [hasPrefix, List.isPrefixOf_iff_prefix] at h2
      obtain ⟨x, hx⟩ := h2
      exact .inr (.inl ⟨h1, ⟨x, hx.symm⟩, rfl⟩)
    · rw [if_neg h2]
      refine .inr (.inr ⟨?_, rfl⟩)
      rintro ⟨x, rfl⟩
      simp [hasPrefix, List.isPrefixOf] at h2

/-- **C77**: a text without an occurrence of the word that is to be replaced stays as it is. -/
theorem C77_none (s : Bytes) (h : ∀ a m b, s = a ++ m ++ b → Spells b!"skylark" m → ¬ Wanted a b) : replaceSkylark s = some (s, false) := by
  unfold replaceSkylark
  rw [foldlM_filter]
  have : (findAll s).filter (fun r => !leaveAlone s r) = [] := by
    rw [List.filter_eq_nil_iff]
    rintro ⟨i, j⟩ hr
    obtain ⟨a, m, b, rfl, hm, rfl, rfl⟩ := (findAll_iff _ _ _).1 hr
    intro hl
    exact h a m b rfl hm ((leaveAlone_iff a m b).1 (by simpa using hl))
  rw [this]
  simp

/-- **C77**: a text with exactly one occurrence that is to be replaced gets the new name there, and is otherwise unchanged. -/
theorem C77_once (a m b : Bytes) (hm : Spells b!"skylark" m) (hw : Wanted a b)
    (h : ∀ a' m' b', a ++ m ++ b = a' ++ m' ++ b' → Spells b!"skylark" m' → Wanted a' b' → a' = a) :
    ∃ t, Renamed m t ∧ replaceSkylark (a ++ m ++ b) = some (a ++ t ++ b, true) := by
  refine ⟨toStarlark m, toStarlark_renamed m, ?_⟩
  unfold replaceSkylark
  rw [foldlM_filter]
  have hr : (a.length, a.length + m.length) ∈ (findAll (a ++ m ++ b)).filter (fun r => !leaveAlone (a ++ m ++ b) r) := by
    rw [List.mem_filter]
    exact ⟨(findAll_iff _ _ _).2 ⟨a, m, b, rfl, hm, rfl, rfl⟩, by rw [(leaveAlone_iff a m b).2 hw]; rfl⟩
  have : (findAll (a ++ m ++ b)).filter (fun r => !leaveAlone (a ++ m ++ b) r) = [(a.length, a.length + m.length)] := by
    refine single_of_sorted ((findAllN_sorted _ _ _).1.filter _) hr ?_
    rintro ⟨i, j⟩ hx
    obtain ⟨h1, h2⟩ := List.mem_filter.1 hx
    obtain ⟨a', m', b', e, hm', rfl, rfl⟩ := (findAll_iff _ _ _).1 h1
    have hw' : Wanted a' b' := by rw [e] at h2; exact (leaveAlone_iff a' m' b').1 (by simpa using h2)
    have ha := h a' m' b' e hm' hw'
    subst ha
    rw [List.append_assoc, List.append_assoc] at e
    obtain ⟨rfl, _⟩ := eat_unique hm rfl hm' (List.append_cancel_left e)
    rfl
  rw [this]
  have hstep : step (a ++ m ++ b) (a ++ m ++ b) (a.length, a.length + m.length) = some (a ++ toStarlark m ++ b) := by
    unfold step
    rw [(leaveAlone_iff a m b).2 hw]
    simp only [Bool.false_eq_true, if_false]
    rw [if_pos (by simp)]
    simp only [List.append_assoc, Option.some.injEq]
    rw [List.take_left, List.drop_left, Nat.add_sub_cancel_left, List.take_left, ← List.append_assoc a m b,
      show a.length + m.length = (a ++ m).length by simp, List.drop_left]
  simp only [List.foldlM_cons, List.foldlM_nil, hstep]
  simp only [Option.pure_def, Option.bind_eq_bind, Option.bind_some, Option.map_some, Option.some.injEq, Prod.mk.injEq, decide_eq_true_eq, true_and]
  intro e
  rw [List.append_assoc, List.append_assoc] at e
  have e := List.append_cancel_right (List.append_cancel_left e)
  -- the new name is not a way to write the old one
  rw [← e] at hm
  have : ∀ t ∈ [b!"STARLARK", b!"Starlark", b!"starlark"], ¬ Spells b!"skylark" t := by
    intro t ht hs
    have := (eat_iff b!"skylark" t []).2 ⟨t, hs, by simp⟩
    simp only [List.mem_cons, List.not_mem_nil, or_false] at ht
    rcases ht with rfl | rfl | rfl <;> exact absurd this (by decide)
  refine this _ ?_ hm
  unfold toStarlark
  split
  · simp
  · split <;> simp

theorem ascii_length {m : Bytes} {w : Bytes} (h : Spells w m) (ha : ∀ b ∈ m, b < 128) : m.length = w.length := by
  induction h with
  | nil => rfl
  | @cons c l w t h1 h2 ih =>
    have := ih fun b hb => ha b (List.mem_append_right _ hb)
    cases h1 with
    | lower => simp; omega
    | upper => simp; omega
    | longS => exact absurd (ha 0xC5 (by simp)) (by decide)
    | kelvin => exact absurd (ha 0xE2 (by simp)) (by decide)

theorem toStarlark_length (m : Bytes) : (toStarlark m).length = 8 := by
  unfold toStarlark
  split
  · rfl
  · split <;> rfl

theorem run_length (s : Bytes) (hs : ∀ b ∈ s, b < 128) (L : List (Nat × Nat)) (hL : ∀ r ∈ L, r ∈ findAll s) (hw : ∀ r ∈ L, leaveAlone s r = false)
    (cur : Bytes) (hc : s.length ≤ cur.length) : ∃ t, L.foldlM (step s) cur = some t ∧ t.length = cur.length + L.length := by
  induction L generalizing cur with
  | nil => exact ⟨cur, rfl, rfl⟩
  | cons r L ih =>
    obtain ⟨a, m, b, hab, hm, h1, h2⟩ := (findAll_iff s r.1 r.2).1 (hL r List.mem_cons_self)
    have hm7 : m.length = 7 := ascii_length hm fun x hx => hs x (by rw [hab]; simp [hx])
    have hsl : s.length = a.length + m.length + b.length := by rw [hab]; simp; omega
    have hstep : step s cur r = some (cur.take r.1 ++ toStarlark ((cur.drop r.1).take (r.2 - r.1)) ++ cur.drop r.2) := by
      unfold step
      rw [hw r List.mem_cons_self, if_neg (by simp), if_pos (by omega)]
    obtain ⟨t, ht, hlen⟩ := ih (fun x hx => hL x (List.mem_cons_of_mem _ hx)) (fun x hx => hw x (List.mem_cons_of_mem _ hx))
      (cur.take r.1 ++ toStarlark ((cur.drop r.1).take (r.2 - r.1)) ++ cur.drop r.2)
      (by simp only [List.length_append, toStarlark_length, List.length_take, List.length_drop]; omega)
    refine ⟨t, ?_, ?_⟩
    · rw [List.foldlM_cons, hstep]; exact ht
    · rw [hlen]
      simp only [List.length_append, toStarlark_length, List.length_take, List.length_drop, List.length_cons]; omega

/-- **C77**: on ASCII text the replacement does not panic, and it reports a change exactly if there is an occurrence that is to be replaced. -/
theorem C77_ascii (s : Bytes) (hs : ∀ b ∈ s, b < 128) :
    ∃ t changed, replaceSkylark s = some (t, changed) ∧ s.length ≤ t.length ∧
      (changed = true ↔ ∃ a m b, s = a ++ m ++ b ∧ Spells b!"skylark" m ∧ Wanted a b) := by
  by_cases h : ∃ a m b, s = a ++ m ++ b ∧ Spells b!"skylark" m ∧ Wanted a b
  · obtain ⟨t, ht, hlen⟩ := run_length s hs ((findAll s).filter fun r => !leaveAlone s r) (fun r hr => (List.mem_filter.1 hr).1)
      (fun r hr => by simpa using (List.mem_filter.1 hr).2) s (Nat.le_refl _)
    refine ⟨t, true, ?_, by omega, by simpa using h⟩
    unfold replaceSkylark
    rw [foldlM_filter, ht]
    obtain ⟨a, m, b, rfl, hm, hw⟩ := h
    have hr : (a.length, a.length + m.length) ∈ (findAll (a ++ m ++ b)).filter (fun r => !leaveAlone (a ++ m ++ b) r) := by
      rw [List.mem_filter]
      exact ⟨(findAll_iff _ _ _).2 ⟨a, m, b, rfl, hm, rfl, rfl⟩, by rw [(leaveAlone_iff a m b).2 hw]; rfl⟩
    have := List.length_pos_of_mem hr
    simp only [Option.map_some, Option.some.injEq, Prod.mk.injEq, decide_eq_true_eq, true_and]
    intro e
    rw [e] at hlen
    omega
  · refine ⟨s, false, C77_none s fun a m b e hm hw => h ⟨a, m, b, e, hm, hw⟩, Nat.le_refl _, by simpa using h⟩

/-- **C77**: if there are two occurrences, the second is replaced at the place where it was before the first was: the text is damaged. -/
theorem C77_two_occurrences : replaceSkylark b!"skylark skylark" = some (b!"starlarkstarlarkk", true) := by decide

/-- **C77**: two occurrences with the Kelvin sign make the program panic. -/
theorem C77_panics : replaceSkylark b!"skylar\u212A skylar\u212A" = none := by decide

/-- **C77**: the word before a slash is replaced although the comment of the function says it is not, and a word is left alone if the slash comes one
byte later. -/
theorem C77_slash : replaceSkylark b!"see skylark/doc" = some (b!"see starlark/doc", true) ∧
    replaceSkylark b!"a skylark / b" = some (b!"a skylark / b", false) := by decide

/-- the hypotheses of `C77_once` can be met; there is another occurrence, in a URL, that is left alone -/
example : ∃ t, Renamed b!"Skylark" t ∧
    replaceSkylark (b!"see /skylark, the " ++ b!"Skylark" ++ b!" docs") = some (b!"see /skylark, the " ++ t ++ b!" docs", true) := by
  refine C77_once _ _ _ ?_ ?_ ?_
  · obtain ⟨m, hm, e⟩ := (eat_iff b!"skylark" b!"Skylark" []).1 (by decide)
    rw [e]; simpa using hm
  · refine ⟨?_, ?_⟩
    · rintro ⟨x, hx⟩
      have := congrArg (fun l : Bytes => l.getLast?) hx
      simp at this
    · rintro ⟨x, t, ht⟩
      simp at ht
  · intro a m b e hm hw
    have hmem := (findAll_iff _ _ _).2 ⟨a, m, b, e, hm, rfl, rfl⟩
    rw [show findAll (b!"see /skylark, the " ++ b!"Skylark" ++ b!" docs") = [(5, 12), (18, 25)] by decide] at hmem
    have hlen : a.length = 5 ∨ a.length = 18 := by simp at hmem; omega
    have ha : a = (b!"see /skylark, the " ++ b!"Skylark" ++ b!" docs").take a.length := by
      rw [e, List.append_assoc, List.take_left]
    rcases hlen with h | h
    · rw [h] at ha
      exact absurd ⟨b!"see ", by rw [ha]; rfl⟩ hw.1
    · rw [h] at ha; rw [ha]; rfl

end Verif.Skylark
