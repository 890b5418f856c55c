import Verif.Proofs.SoundCheck
import Verif.Props.Complete
/-
C62: the parser accepts only sentences of the unambiguous grammar (Model/Fine.lean); with C61, exactly those.
-/
namespace Verif.Props.Grammar
open Verif Verif.Syntax Verif.Lexer Verif.Parser Verif.Grammar Verif.LR

/-! ## Numbers -/

theorem tokNum_pos (k : Nat) : 0 < tokNum k := by
  by_cases h1 : k < 127
  · exact of_decide_eq_true (allBelow_spec (fun k => decide (0 < tokNum k)) 127 (by decide +kernel) k h1)
  · by_cases h2 : 57344 ≤ k ∧ k < 57344 + 38
    · have := allBelow_spec (fun k => decide (0 < tokNum (57344 + k))) 38 (by decide +kernel) (k - 57344) (by omega)
      rw [show 57344 + (k - 57344) = k by omega] at this
      exact of_decide_eq_true this
    · rw [tokNum_big h1 h2]; decide

theorem lookahead_pos (ts : List Tok) : 0 < lookahead ts := by
  cases ts with
  | nil => decide
  | cons t _ => exact tokNum_pos t.kind

theorem allMask_bit {t : Nat} (h0 : 0 < t) (h : t < 64) : allMask.testBit t = true := by
  have : allBelow (fun t => t == 0 || allMask.testBit t) 64 = true := by decide +kernel
  have := allBelow_spec _ 64 this t h
  simp only [Bool.or_eq_true, beq_iff_eq] at this
  exact this.resolve_left (by omega)

theorem allMask_lookahead (ts : List Tok) : allMask.testBit (lookahead ts) = true := allMask_bit (lookahead_pos ts) (lookahead_lt ts)

/-- a class of the refined grammar -/
def IsClass (a : FNT) : Prop := classTab[fntNum a - 64]? = some a ∧ 64 ≤ fntNum a

theorem class_inj {a b : FNT} (ha : IsClass a) (hb : IsClass b) (h : fntNum a = fntNum b) : a = b := by
  have h1 := ha.1
  rw [h, hb.1] at h1
  exact (Option.some.inj h1).symm

theorem fine_class {a r rhs} (h : (a, r, rhs) ∈ fine) : IsClass a ∧ ∀ b, FSym.n b ∈ rhs → IsClass b := by
  have := List.all_eq_true.1 check_classes _ h
  simp only [Bool.and_eq_true, decide_eq_true_eq] at this
  refine ⟨⟨this.1, fntNum_ge h⟩, fun b hb => ?_⟩
  have := List.all_eq_true.1 this.2 _ hb
  simp only [Bool.and_eq_true, decide_eq_true_eq] at this
  exact ⟨this.1, by have := blt_iff.1 this.2; omega⟩

theorem fderiv_class {a ts v} (h : FDeriv (.n a) ts v) : IsClass a := by
  cases h with
  | prod _ _ _ _ _ _ hm => exact (fine_class hm).1
  | incl _ _ _ _ hm => exact (fine_class hm).1

theorem class_lt {a} (h : IsClass a) : fntNum a - 64 < 86 := by
  obtain ⟨h1, _⟩ := List.getElem?_eq_some_iff.1 h.1
  have : classTab.length = 86 := rfl
  omega

/-- a refined production in numbers is one of `fine` -/
theorem code_fine {a r : Nat} {rhs : List Nat} (h : (a, r, rhs) ∈ fcode) : ∃ a' rhs', (a', r, rhs') ∈ fine ∧ fntNum a' = a ∧ rhs'.map fsymNum = rhs := by
  rw [← fcode_eq] at h
  obtain ⟨⟨a', r', rhs'⟩, hm, he⟩ := List.mem_map.1 h
  simp only [Prod.mk.injEq] at he
  obtain ⟨h1, h2, h3⟩ := he
  subst h2
  exact ⟨a', rhs', hm, h1, h3⟩

/-! ## Inclusions -/

theorem supOK_spec {a : FNT} {ts v} (h : FDeriv (.n a) ts v) : ∀ (l : List Nat) (before : Nat),
    (∀ c, before.testBit c = true → ∀ b, IsClass b → fntNum b = c → FDeriv (.n b) ts v) → supOK (fntNum a) before l = true →
    ∀ c, (maskOf l).testBit c = true → ∀ b, IsClass b → fntNum b = c → FDeriv (.n b) ts v := by
  intro l
  induction l with
  | nil => intro before _ _ c hc; simp [maskOf] at hc
  | cons x l ih =>
    intro before hb hok c hc b hbc hbn
    simp only [supOK, Bool.and_eq_true] at hok
    have hx : ∀ b, IsClass b → fntNum b = x → FDeriv (.n b) ts v := by
      intro b hbc hbn
      have := hok.1
      rw [Bool.or_eq_true] at this
      rcases this with h1 | h1
      · have : a = b := class_inj (fderiv_class h) hbc (by rw [hbn]; exact Nat.eq_of_beq_eq_true h1)
        rw [← this]; exact h
      · obtain ⟨p, hp, hc⟩ := List.any_eq_true.1 h1
        obtain ⟨p1, p2, p3⟩ := p
        simp only [Bool.and_eq_true] at hc
        obtain ⟨⟨e1, e2⟩, e3⟩ := hc
        have e1 := Nat.eq_of_beq_eq_true e1
        have e2 := Nat.eq_of_beq_eq_true e2
        subst e1 e2
        obtain ⟨a', rhs', hm, f1, f2⟩ := code_fine hp
        have : a' = b := class_inj (fine_class hm).1 hbc (by rw [f1, hbn])
        subst this
        split at e3
        · rename_i c'
          cases rhs' with
          | nil => cases f2
          | cons y ys =>
            cases ys with
            | cons _ _ => simp at f2
            | nil =>
              simp only [List.map_cons, List.map_nil, List.cons.injEq, and_true] at f2
              cases y with
              | t k =>
                exfalso
                have key : fine.all (fun p => !decide (p.2.1 = 0) || p.2.2.all (fun x => match x with | .t _ => false | .n _ => true)) = true := by decide +kernel
                have := List.all_eq_true.1 key _ hm
                simp at this
              | n y => exact FDeriv.incl _ y _ _ hm (hb c' e3 y ((fine_class hm).2 y (by simp)) f2)
        · cases e3
    have hbit : c = x ∨ (maskOf l).testBit c = true := by
      unfold maskOf at hc
      have := (Nat.testBit_or (1 <<< x) (maskOf l) c).symm.trans hc
      rw [Bool.or_eq_true] at this
      rcases this with h1 | h1
      · left
        rw [Nat.one_shiftLeft, Nat.testBit_two_pow] at h1
        exact (of_decide_eq_true h1).symm
      · exact Or.inr h1
    rcases hbit with rfl | h1
    · exact hx b hbc hbn
    · refine ih _ ?_ hok.2 c h1 b hbc hbn
      intro c hc b hbc hbn
      have := (Nat.testBit_or before (1 <<< x) c).symm.trans hc
      rw [Bool.or_eq_true] at this
      rcases this with h1 | h1
      · exact hb c h1 b hbc hbn
      · rw [Nat.one_shiftLeft, Nat.testBit_two_pow] at h1
        exact hx b hbc (by rw [hbn]; exact (of_decide_eq_true h1).symm)

theorem incl_spec {a b : FNT} {ts v} (h : FDeriv (.n a) ts v) (hb : IsClass b) (hs : (nthN supTab (fntNum a - 64)).testBit (fntNum b) = true) :
    FDeriv (.n b) ts v := by
  have ha := fderiv_class h
  have := allBelow_spec _ 86 check_sup _ (class_lt ha)
  rw [Bool.and_eq_true, show 64 + (fntNum a - 64) = fntNum a by have := ha.2; omega] at this
  refine supOK_spec h _ 0 (fun c hc => ?_) this.1 (fntNum b) ?_ b hb rfl
  · simp at hc
  · rw [Nat.eq_of_beq_eq_true this.2]; exact hs

/-! ## The stack -/

/-- The entry with state `s'` above state `s`: a symbol of the refined grammar, derived from `ts` with value `v`, where `rest` follows. -/
def Entry (s s' : Nat) (x : FSym) (ts : List Tok) (v : Val) (rest : List Tok) : Prop :=
  FDeriv x ts v ∧ edge s s' (symNum x.base) = true ∧ match x with
    | .t k => action s (tokNum k) = .shift s'
    | .n a => s' = gotoN s (ntNum a.base) ∧ ∃ m, (fntNum a, m) ∈ row labTab s ∧ m.testBit (lookahead rest) = true

/-- The stack, top first, after tokens that are followed by `rest`. -/
inductive FGood : List (Nat × Val) → List Tok → List Tok → Prop
  | base (v rest) : FGood [(0, v)] [] rest
  | push (s v p w st x ts ts' rest) : FGood ((p, w) :: st) ts (ts' ++ rest) → Entry p s x ts' v rest → FGood ((s, v) :: (p, w) :: st) (ts ++ ts') rest

/-- The entries from state `s` up to state `s'`. -/
inductive Path (rest : List Tok) : Nat → List FSym → List Tok → List Val → Nat → Prop
  | nil (s) : Path rest s [] [] [] s
  | cons (s s1 s2 x xs ts ts' v vs) : Entry s s1 x ts v (ts' ++ rest) → Path rest s1 xs ts' vs s2 → Path rest s (x :: xs) (ts ++ ts') (v :: vs) s2

theorem path_snoc {rest : List Tok} {ts1} (x : FSym) (v : Val) (s1 s2 : Nat) : ∀ {s xs ts vs}, Path (ts1 ++ rest) s xs ts vs s1 → Entry s1 s2 x ts1 v rest →
    Path rest s (xs ++ [x]) (ts ++ ts1) (vs ++ [v]) s2 := by
  intro s xs
  induction xs generalizing s with
  | nil =>
    intro ts vs h he
    cases h
    have := Path.cons (rest := rest) _ _ _ _ _ ts1 [] v [] he (Path.nil _)
    simpa using this
  | cons y ys ih =>
    intro ts vs h he
    cases h with
    | cons _ s3 _ _ _ t1 t2 w ws e1 h2 =>
      have := Path.cons (rest := rest) _ _ _ _ _ t1 (t2 ++ ts1) w _ (by rw [List.append_assoc]; exact e1) (ih h2 he)
      simpa using this

theorem fgood_lt {s v st ts rest} (h : FGood ((s, v) :: st) ts rest) : s < 267 := by
  cases h with
  | base => decide
  | push _ _ _ _ _ _ _ _ _ _ he =>
    have he := he.2.1
    simp only [edge, Bool.and_eq_true, decide_eq_true_eq] at he
    exact he.1.1

theorem fgood_zero {v st ts rest} (h : FGood ((0, v) :: st) ts rest) : ts = [] := by
  cases h with
  | base => rfl
  | push _ _ p _ _ x _ _ _ _ he =>
    have he := he.2.1
    simp only [edge, Bool.and_eq_true] at he
    have : preds 0 = [] := by decide
    rw [this] at he
    simp at he

theorem fdescend (f : Nat → Bool) : ∀ (xs : List Sym) (s : Nat) (v : Val) (st : List (Nat × Val)) (ts rest : List Tok),
    FGood ((s, v) :: st) ts rest → (∀ x ∈ xs, Known x) → descend f xs s = true →
    ∃ b w st' ts0 ts1 ys, ((s, v) :: st).drop xs.length = (b, w) :: st' ∧ FGood ((b, w) :: st') ts0 (ts1 ++ rest) ∧ ts = ts0 ++ ts1 ∧ f b = true ∧
      ys.map FSym.base = xs.reverse ∧ Path rest b ys ts1 ((((s, v) :: st).take xs.length).map (·.2)).reverse s := by
  intro xs
  induction xs with
  | nil =>
    intro s v st ts rest hg _ hd
    exact ⟨s, v, st, ts, [], [], rfl, hg, by simp, hd, rfl, Path.nil _⟩
  | cons x xs ih =>
    intro s v st ts rest hg hk hd
    simp only [descend, Bool.and_eq_true, decide_eq_true_eq] at hd
    cases hg with
    | base =>
      exfalso
      have h0 : look yyChk 0 = -1000 := by decide
      rw [h0] at hd
      cases x with
      | t k => simp only [symNum] at hd; omega
      | n a => have := ntNum_pos a; simp only [symNum] at hd; omega
    | push _ _ p w st y ts1 ts2 _ hg he0 =>
      have he := he0.2.1
      simp only [edge, Bool.and_eq_true, decide_eq_true_eq] at he
      have hxy : y.base = x := symNum_inj (hk x (List.mem_cons_self ..)) (by rw [← he.2, hd.1])
      subst hxy
      have hp : descend f xs p = true := List.all_eq_true.1 hd.2 p (by simpa using he.1.2)
      obtain ⟨b, w', st', t0, t1, ys, e1, e2, e3, e4, e5, e6⟩ := ih p w st ts1 (ts2 ++ rest) hg (fun z hz => hk z (List.mem_cons_of_mem _ hz)) hp
      refine ⟨b, w', st', t0, t1 ++ ts2, ys ++ [y], e1, by rw [List.append_assoc]; exact e2, by rw [e3, List.append_assoc], e4, by simp [e5], ?_⟩
      have := path_snoc y v p s e6 he0
      simpa using this

/-! ## The walk -/

theorem ins_mem {c m : Nat} : ∀ {l : List (Nat × Nat)}, (c, m) ∈ ins c m l ∧ ∀ p ∈ l, p ∈ ins c m l := by
  intro l
  induction l with
  | nil => exact ⟨List.mem_cons_self .., nofun⟩
  | cons q l ih =>
    obtain ⟨c', m'⟩ := q
    unfold ins
    cases hb : Nat.beq c c' && Nat.beq m m' with
    | true =>
      rw [Bool.and_eq_true] at hb
      rw [Nat.eq_of_beq_eq_true hb.1, Nat.eq_of_beq_eq_true hb.2]
      exact ⟨List.mem_cons_self .., fun p hp => hp⟩
    | false =>
      refine ⟨List.mem_cons_of_mem _ ih.1, fun p hp => ?_⟩
      rcases List.mem_cons.1 hp with rfl | hp
      · exact List.mem_cons_self ..
      · exact List.mem_cons_of_mem _ (ih.2 p hp)

theorem overLabels_acc {x : Nat} {col : List Nat} {cm pm : Nat} : ∀ {l acc : List (Nat × Nat)} {p}, p ∈ acc → p ∈ overLabels x col cm pm l acc := by
  intro l
  induction l with
  | nil => intro acc p h; exact h
  | cons q l ih =>
    intro acc p h
    obtain ⟨a, m⟩ := q
    unfold overLabels
    apply ih
    cases Nat.beq (nthN baseTab (a - 64)) x with
    | false => exact h
    | true => cases Nat.beq (Nat.land pm (startMask a m)) 0 with
      | true => exact h
      | false => exact ins_mem.2 p h

theorem overLabels_mem {x : Nat} {col : List Nat} {cm pm : Nat} {a m t : Nat} : ∀ {l acc : List (Nat × Nat)}, (a, m) ∈ l → nthN baseTab (a - 64) = x →
    pm.testBit t = true → (startMask a m).testBit t = true →
    (Nat.land cm (colMask (nthN supTab (a - 64)) col), m) ∈ overLabels x col cm pm l acc := by
  intro l
  induction l with
  | nil => intro acc h; cases h
  | cons q l ih =>
    intro acc h hx hp hs
    obtain ⟨a', m'⟩ := q
    unfold overLabels
    rcases List.mem_cons.1 h with e | h
    · cases e
      apply overLabels_acc
      rw [hx, Nat.beq_refl]
      have : Nat.beq (Nat.land pm (startMask a m)) 0 = false := by
        cases hb : Nat.beq (Nat.land pm (startMask a m)) 0 with
        | false => rfl
        | true =>
          have h0 := Nat.eq_of_beq_eq_true hb
          have h1 : (pm &&& startMask a m).testBit t = true := by rw [Nat.testBit_and, hp, hs]; rfl
          rw [show pm &&& startMask a m = 0 from h0] at h1
          simp at h1
      rw [this]
      exact ins_mem.1
    · exact ih h hx hp hs

theorem overConfigs_acc {x : Nat} {col : List Nat} {lab : List (Nat × Nat)} : ∀ {l acc : List (Nat × Nat)} {p}, p ∈ acc → p ∈ overConfigs x col lab l acc := by
  intro l
  induction l with
  | nil => intro acc p h; exact h
  | cons q l ih => intro acc p h; exact ih (overLabels_acc h)

theorem overConfigs_mem {x : Nat} {col : List Nat} {lab : List (Nat × Nat)} {cm pm a m t : Nat} : ∀ {l acc : List (Nat × Nat)}, (cm, pm) ∈ l → (a, m) ∈ lab →
    nthN baseTab (a - 64) = x → pm.testBit t = true → (startMask a m).testBit t = true →
    (Nat.land cm (colMask (nthN supTab (a - 64)) col), m) ∈ overConfigs x col lab l acc := by
  intro l
  induction l with
  | nil => intro acc h; cases h
  | cons q l ih =>
    intro acc h hl hx hp hs
    obtain ⟨c', p'⟩ := q
    unfold overConfigs
    rcases List.mem_cons.1 h with e | h
    · cases e
      exact overConfigs_acc (overLabels_mem hl hx hp hs)
    · exact ih h hl hx hp hs

theorem overToken_acc {k : Nat} : ∀ {l acc : List (Nat × Nat)} {p}, p ∈ acc → p ∈ overToken k l acc := by
  intro l
  induction l with
  | nil => intro acc p h; exact h
  | cons q l ih =>
    intro acc p h
    unfold overToken
    apply ih
    cases Nat.testBit q.2 k with
    | true => exact ins_mem.2 p h
    | false => exact h

theorem overToken_mem {k cm pm : Nat} : ∀ {l acc : List (Nat × Nat)}, (cm, pm) ∈ l → pm.testBit k = true → (cm, allMask) ∈ overToken k l acc := by
  intro l
  induction l with
  | nil => intro acc h; cases h
  | cons q l ih =>
    intro acc h hp
    obtain ⟨c', p'⟩ := q
    unfold overToken
    rcases List.mem_cons.1 h with e | h
    · cases e
      apply overToken_acc
      rw [hp]
      exact ins_mem.1
    · exact ih h hp

theorem colMask_bit {sup : Nat} : ∀ {l : List Nat} {i : Nat}, (colMask sup l).testBit i = true → ∃ x, l[i]? = some x ∧ sup.testBit x = true := by
  intro l
  induction l with
  | nil => intro i h; simp [colMask] at h
  | cons x l ih =>
    intro i h
    unfold colMask at h
    have hsh : ∀ j, (Nat.shiftLeft (colMask sup l) 1).testBit (j + 1) = (colMask sup l).testBit j := by
      intro j
      show ((colMask sup l) <<< 1).testBit (j + 1) = _
      rw [Nat.testBit_shiftLeft]
      simp
    have hsh0 : (Nat.shiftLeft (colMask sup l) 1).testBit 0 = false := by
      show ((colMask sup l) <<< 1).testBit 0 = _
      rw [Nat.testBit_shiftLeft]
      simp
    cases hs : Nat.testBit sup x with
    | true =>
      rw [hs] at h
      cases i with
      | zero => exact ⟨x, rfl, hs⟩
      | succ i =>
        have h : (1 ||| Nat.shiftLeft (colMask sup l) 1).testBit (i + 1) = true := h
        rw [Nat.testBit_or, hsh] at h
        have h1 : Nat.testBit 1 (i + 1) = false := by rw [Nat.testBit_succ]; simp
        rw [h1, Bool.false_or] at h
        obtain ⟨y, e, f⟩ := ih h
        exact ⟨y, by simpa using e, f⟩
    | false =>
      rw [hs] at h
      cases i with
      | zero =>
        have h : (Nat.shiftLeft (colMask sup l) 1).testBit 0 = true := h
        rw [hsh0] at h; cases h
      | succ i =>
        have h : (Nat.shiftLeft (colMask sup l) 1).testBit (i + 1) = true := h
        rw [hsh] at h
        obtain ⟨y, e, f⟩ := ih h
        exact ⟨y, by simpa using e, f⟩

theorem heads_get : ∀ {l : List (List Nat)} {i : Nat} {x}, 0 < x → (heads l)[i]? = some x → ∃ ys, l[i]? = some (x :: ys) := by
  intro l
  induction l with
  | nil => intro i x _ h; simp [heads] at h
  | cons r l ih =>
    intro i x h0 h
    cases r with
    | nil =>
      cases i with
      | zero => simp [heads] at h; omega
      | succ i =>
        obtain ⟨ys, e⟩ := ih h0 (by simpa [heads] using h)
        exact ⟨ys, by simpa using e⟩
    | cons y ys =>
      cases i with
      | zero => simp [heads] at h; subst h; exact ⟨ys, rfl⟩
      | succ i =>
        obtain ⟨ys, e⟩ := ih h0 (by simpa [heads] using h)
        exact ⟨ys, by simpa using e⟩

theorem tails_get : ∀ {l : List (List Nat)} {i : Nat} {r}, l[i]? = some r → (tails l)[i]? = some r.tail := by
  intro l
  induction l with
  | nil => intro i r h; simp at h
  | cons q l ih =>
    intro i r h
    cases i with
    | zero => simp at h; subst h; cases q <;> rfl
    | succ i =>
      have := ih (i := i) (r := r) (by simpa using h)
      cases q <;> simpa [tails] using this

theorem tails_len : ∀ {l : List (List Nat)}, (tails l).length = l.length := by
  intro l
  induction l with
  | nil => rfl
  | cons q l ih => cases q <;> simp [tails, ih]

theorem endOne_spec {m : Nat} {lab : List (Nat × Nat)} : ∀ {ls : List Nat} {cm : Nat}, endOne m lab cm ls = true →
    ∃ i l m', cm.testBit i = true ∧ ls[i]? = some l ∧ find lab l = some m' ∧ sub m m' = true := by
  intro ls
  induction ls with
  | nil => intro cm h; cases h
  | cons l ls ih =>
    intro cm h
    unfold endOne at h
    rw [Bool.or_eq_true] at h
    rcases h with h | h
    · cases hb : Nat.testBit cm 0 with
      | false => rw [hb] at h; cases h
      | true =>
        rw [hb] at h
        obtain ⟨m', h1, h2⟩ := subOpt_some h
        exact ⟨0, l, m', hb, rfl, h1, h2⟩
    · obtain ⟨i, l', m', h1, h2, h3, h4⟩ := ih h
      refine ⟨i + 1, l', m', ?_, by simpa using h2, h3, h4⟩
      have h1 : (cm >>> 1).testBit i = true := h1
      rw [Nat.testBit_shiftRight] at h1
      rw [Nat.add_comm]; exact h1

theorem endAll_spec {rm : Nat} {lab : List (Nat × Nat)} {ls : List Nat} {cm pm t : Nat} : ∀ {l : List (Nat × Nat)}, endAll rm lab ls l = true → (cm, pm) ∈ l →
    pm.testBit t = true → rm.testBit t = true → ∃ i l m', cm.testBit i = true ∧ ls[i]? = some l ∧ find lab l = some m' ∧ m'.testBit t = true := by
  intro l
  induction l with
  | nil => intro _ h; cases h
  | cons q l ih =>
    intro h hm hp hr
    obtain ⟨c', p'⟩ := q
    simp only [endAll, Bool.and_eq_true] at h
    rcases List.mem_cons.1 hm with e | hm
    · cases e
      have hbit : (pm &&& rm).testBit t = true := by rw [Nat.testBit_and, hp, hr]; rfl
      have hne : Nat.beq (Nat.land pm rm) 0 = false := by
        cases hb : Nat.beq (Nat.land pm rm) 0 with
        | false => rfl
        | true =>
          rw [show pm &&& rm = 0 from Nat.eq_of_beq_eq_true hb] at hbit
          simp at hbit
      have h1 := h.1
      rw [hne] at h1
      obtain ⟨i, l', m', e1, e2, e3, e4⟩ := endOne_spec h1
      exact ⟨i, l', m', e1, e2, e3, sub_testBit e4 hbit⟩
    · exact ih h.2 hm hp hr

/-- the number of a symbol of parse.y in `ruleTab` -/
def rnum : Sym → Nat
  | .t k => tokNum k
  | .n a => 64 + ntNum a

/-- A class on the stack fits a symbol of a refined production if that symbol is a class that includes it (tokens are compared elsewhere). -/
def Fits (x : FSym) (y : Nat) : Prop := match x with
  | .t _ => True
  | .n a => (nthN supTab (fntNum a - 64)).testBit y = true

inductive FitsAll : List FSym → List Nat → Prop
  | nil : FitsAll [] []
  | cons (x xs y ys) : Fits x y → FitsAll xs ys → FitsAll (x :: xs) (y :: ys)

theorem base_num {a ts v} (h : FDeriv (.n a) ts v) : nthN baseTab (fntNum a - 64) = ntNum a.base := by
  cases h with
  | prod _ _ _ _ _ _ hm =>
    have := List.all_eq_true.1 check_base _ hm
    simp only [decide_eq_true_eq] at this
    exact this
  | incl _ _ _ _ hm =>
    have := List.all_eq_true.1 check_base _ hm
    simp only [decide_eq_true_eq] at this
    exact this

theorem walk_spec (r : Nat) (lab0 : List (Nat × Nat)) (ls : List Nat) (rest : List Tok) : ∀ (xs : List FSym) (s : Nat) (rests : List (List Nat))
    (cfgs : List (Nat × Nat)) (cm pm : Nat) (ts : List Tok) (vs : List Val) (s' : Nat), s < 267 →
    walkOK r lab0 ls (xs.map (fun x => rnum x.base)) s (row labTab s) rests cfgs = true → Path rest s xs ts vs s' → (cm, pm) ∈ cfgs →
    pm.testBit (lookahead (ts ++ rest)) = true → action s' (lookahead rest) = .reduce r →
    (∀ ys ∈ rests, ys.length = xs.length) → rests.length = ls.length →
    ∃ i l m ys, cm.testBit i = true ∧ ls[i]? = some l ∧ rests[i]? = some ys ∧ FitsAll xs ys ∧ find lab0 l = some m ∧ m.testBit (lookahead rest) = true := by
  intro xs
  induction xs with
  | nil =>
    intro s rests cfgs cm pm ts vs s' hs hw hp hm hpm hact hlen hl
    cases hp
    have hsh := allBelow_spec _ 64 (allBelow_spec _ 267 check_shifts s hs) (lookahead rest) (lookahead_lt rest)
    rw [hact] at hsh
    dsimp only at hsh
    rw [Bool.or_eq_true] at hsh
    have hsh := hsh.resolve_right (fun h => by have := Nat.eq_of_beq_eq_true h; have := lookahead_pos rest; omega)
    rw [List.map_nil] at hw
    unfold walkOK at hw
    cases hf : find (row redTab s) r with
    | none => rw [hf] at hsh; cases hsh
    | some rm =>
      rw [hf] at hsh hw
      dsimp only at hsh hw
      obtain ⟨i, l, m', e1, e2, e3, e4⟩ := endAll_spec hw hm (by simpa using hpm) hsh
      obtain ⟨hi, _⟩ := List.getElem?_eq_some_iff.1 e2
      have hi' : i < rests.length := by omega
      refine ⟨i, l, m', rests[i], e1, e2, List.getElem?_eq_getElem hi', ?_, e3, e4⟩
      have := hlen _ (List.getElem_mem hi')
      rw [List.eq_nil_of_length_eq_zero this]
      exact FitsAll.nil
  | cons x xs ih =>
    intro s rests cfgs cm pm ts vs s' hs hw hp hm hpm hact hlen hl
    cases hp with
    | cons _ s1 _ _ _ t1 t2 v vs he hp =>
      obtain ⟨hd, hedge, hx⟩ := he
      have hs1 : s1 < 267 := by
        simp only [edge, Bool.and_eq_true, decide_eq_true_eq] at hedge
        exact hedge.1.1
      rw [List.map_cons] at hw
      unfold walkOK at hw
      have hlen' : ∀ ys ∈ tails rests, ys.length = xs.length := by
        intro ys hys
        obtain ⟨i, hi⟩ := List.mem_iff_getElem?.1 hys
        obtain ⟨hi1, _⟩ := List.getElem?_eq_some_iff.1 hi
        rw [tails_len] at hi1
        have h1 := tails_get (List.getElem?_eq_getElem hi1)
        rw [hi] at h1
        have h2 := hlen _ (List.getElem_mem hi1)
        rw [Option.some.inj h1, List.length_tail, h2]
        rfl
      have hl' : (tails rests).length = ls.length := by rw [tails_len, hl]
      -- a configuration of the next state
      have main : ∀ (cfgs' : List (Nat × Nat)) (cm' pm' : Nat), (cm', pm') ∈ cfgs' → pm'.testBit (lookahead (t2 ++ rest)) = true →
          (∀ i, cm'.testBit i = true → cm.testBit i = true ∧ ∀ y ys, rests[i]? = some (y :: ys) → Fits x y) →
          walkOK r lab0 ls (xs.map (fun x => rnum x.base)) s1 (row labTab s1) (tails rests) cfgs' = true →
          ∃ i l m ys, cm.testBit i = true ∧ ls[i]? = some l ∧ rests[i]? = some ys ∧ FitsAll (x :: xs) ys ∧ find lab0 l = some m ∧ m.testBit (lookahead rest) = true := by
        intro cfgs' cm' pm' hm' hpm' hfit hw'
        obtain ⟨i, l, m, ys, e1, e2, e3, e4, e5, e6⟩ := ih s1 (tails rests) cfgs' cm' pm' t2 vs s' hs1 hw' hp hm' hpm' hact hlen' hl'
        obtain ⟨hi, _⟩ := List.getElem?_eq_some_iff.1 e3
        rw [tails_len] at hi
        have h1 := List.getElem?_eq_getElem hi
        have h2 := hlen _ (List.getElem_mem hi)
        cases hr : rests[i] with
        | nil => rw [hr] at h2; simp at h2
        | cons y ys' =>
          rw [hr] at h1
          have h3 := tails_get h1
          rw [e3] at h3
          cases (Option.some.inj h3)
          exact ⟨i, l, m, y :: ys', (hfit i e1).1, e2, h1, FitsAll.cons _ _ _ _ ((hfit i e1).2 y ys' h1) e4, e5, e6⟩
      cases x with
      | t k =>
        dsimp only at hx
        have hk : Nat.blt (rnum (FSym.t k).base) 64 = true := blt_iff.2 (tokNum_lt k)
        rw [hk] at hw
        simp only [cond_true] at hw
        have ht1 : lookahead (t1 ++ t2 ++ rest) = tokNum k := by
          generalize hy : FSym.t k = y at hd
          cases hd with
          | tok t => cases hy; rfl
          | prod => cases hy
          | incl => cases hy
        rw [ht1] at hpm
        have hmem : (cm, allMask) ∈ overToken (rnum (FSym.t k).base) cfgs [] := overToken_mem hm hpm
        have hmv : find (row moveTab s) (tokNum k) = some s1 := by
          have hsh := allBelow_spec _ 64 (allBelow_spec _ 267 check_shifts s hs) (tokNum k) (tokNum_lt k)
          rw [hx] at hsh
          dsimp only at hsh
          cases hf : find (row moveTab s) (tokNum k) with
          | none => rw [hf] at hsh; cases hsh
          | some n => rw [hf] at hsh; rw [Nat.eq_of_beq_eq_true hsh]
        split at hw
        · rename_i hnil
          rw [hnil] at hmem
          cases hmem
        · rename_i cfgs' _
          rw [show rnum (FSym.t k).base = tokNum k from rfl, hmv] at hw
          exact main _ _ _ hmem (allMask_lookahead _) (fun i hi => ⟨hi, fun _ _ _ => trivial⟩) hw
      | n a =>
        dsimp only at hx
        obtain ⟨hg, m, hlab, hmb⟩ := hx
        have hk : Nat.blt (rnum (FSym.n a).base) 64 = false := by
          cases hb : Nat.blt (rnum (FSym.n a).base) 64 with
          | false => rfl
          | true => have := blt_iff.1 hb; have h' : rnum (FSym.n a).base = 64 + ntNum a.base := rfl; omega
        rw [hk] at hw
        simp only [cond_false] at hw
        have hstart : (startMask (fntNum a) m).testBit (lookahead (t1 ++ t2 ++ rest)) = true := by
          have hf := first_spec hd
          unfold startMask
          cases t1 with
          | nil =>
            have h1 := (hf.1 rfl).2
            rw [show nullable (fntNum a) = true from h1]
            simp only [cond_true]
            exact (Nat.testBit_or _ _ _).trans (by rw [show lookahead ([] ++ t2 ++ rest) = lookahead (t2 ++ rest) from rfl, hmb, Bool.or_true])
          | cons t t1 =>
            have h1 := hf.2 t t1 rfl
            have hge := (fderiv_class hd).2
            unfold firstOf at h1
            rw [if_neg (show ¬ fsymNum (FSym.n a) < 64 by show ¬ fntNum a < 64; omega)] at h1
            have h1 : (nthN firstTab (fntNum a - 64)).testBit (lookahead (t :: t1 ++ t2 ++ rest)) = true := h1
            cases nullable (fntNum a) with
            | false => exact h1
            | true => exact (Nat.testBit_or _ _ _).trans (by rw [h1, Bool.true_or])
        have hbase : nthN baseTab (fntNum a - 64) = rnum (FSym.n a).base - 64 := by
          rw [base_num hd]
          show _ = 64 + ntNum a.base - 64
          omega
        have hmem := overConfigs_mem (acc := []) (col := heads rests) hm hlab hbase hpm hstart
        split at hw
        · rename_i hnil
          rw [hnil] at hmem
          cases hmem
        · rename_i cfgs' _
          cases hf : find (row moveTab s) (rnum (FSym.n a).base) with
          | none => rw [hf] at hw; dsimp only at hw; first | cases hw | (rw [hk] at hw; cases hw)
          | some n =>
            rw [hf] at hw
            dsimp only at hw
            have hmo := allBelow_spec _ 267 check_moves s hs
            have hn : n = s1 := by
              have : ∀ l, movesOK s l = true → (rnum (FSym.n a).base, n) ∈ l → gotoN s (rnum (FSym.n a).base - 64) = n := by
                intro l
                induction l with
                | nil => intro _ h; cases h
                | cons q l ihl =>
                  intro h hm
                  obtain ⟨q1, q2⟩ := q
                  simp only [movesOK, Bool.and_eq_true] at h
                  rcases List.mem_cons.1 hm with e | hm
                  · cases e
                    have := h.1
                    rw [hk] at this
                    exact Nat.eq_of_beq_eq_true this
                  · exact ihl h.2 hm
              have := this _ hmo (find_mem hf)
              rw [hg, ← this]
              show gotoN s (64 + ntNum a.base - 64) = _
              rw [Nat.add_sub_cancel_left]
            subst hn
            refine main _ _ _ hmem hmb (fun i hi => ?_) hw
            have hi := (Nat.testBit_and _ _ _).symm.trans hi
            rw [Bool.and_eq_true] at hi
            refine ⟨hi.1, fun y ys hy => ?_⟩
            obtain ⟨z, hz, hsup⟩ := colMask_bit hi.2
            rcases Nat.eq_zero_or_pos z with h0 | h0
            · have hcol : ∀ (l : List (List Nat)) (i : Nat), l[i]? = some (y :: ys) → (heads l)[i]? = some y := by
                intro l
                induction l with
                | nil => intro i h; simp at h
                | cons q l ihl =>
                  intro i h
                  cases i with
                  | zero => simp at h; subst h; rfl
                  | succ i =>
                    have := ihl i (by simpa using h)
                    cases q <;> simpa [heads] using this
              rw [hcol _ _ hy] at hz
              cases hz
              exact hsup
            · obtain ⟨ys', e⟩ := heads_get h0 hz
              rw [hy] at e
              cases e
              exact hsup

/-! ## The run -/

theorem fits_deriv {rest : List Tok} : ∀ {xs : List FSym} {s ts vs s'} (_ : Path rest s xs ts vs s') {ys : List FSym}, FitsAll xs (ys.map fsymNum) →
    xs.map FSym.base = ys.map FSym.base → (∀ b, FSym.n b ∈ ys → IsClass b) → FDerivL ys ts vs := by
  intro xs
  induction xs with
  | nil =>
    intro s ts vs s' hp ys hf _ _
    cases hp
    cases ys with
    | nil => exact FDerivL.nil
    | cons _ _ => cases hf
  | cons x xs ih =>
    intro s ts vs s' hp ys hf hb hc
    cases hp with
    | cons _ s1 _ _ _ t1 t2 v vs he hp =>
      cases ys with
      | nil => cases hf
      | cons y ys =>
        simp only [List.map_cons, List.cons.injEq] at hb
        rw [List.map_cons] at hf
        cases hf with
        | cons _ _ _ _ h1 h2 =>
          refine FDerivL.cons _ _ _ _ _ _ ?_ (ih hp h2 hb.2 fun b hb => hc b (List.mem_cons_of_mem _ hb))
          cases x with
          | t k => cases y with
            | t k' => have := hb.1; simp only [FSym.base, Sym.t.injEq] at this; rw [← this]; exact he.1
            | n b => have := hb.1; cases this
          | n a => cases y with
            | t k' => have := hb.1; cases this
            | n b => exact incl_spec he.1 (hc b (List.mem_cons_self ..)) h1

theorem find_row {l : List (Nat × Nat)} {k b : Nat} (h : find l k = some b) : (k, b) ∈ l := find_mem h

/-- the rule table covers the productions -/
theorem rule_mem {r : Nat} (h : 1 ≤ r) (h' : r ≤ 148) : ∃ xs ls rests, (r, xs, ls, rests) ∈ ruleTab := by
  have hm : r ∈ ruleTab.map (·.1) := by
    rw [check_ruleNums]
    exact List.mem_map.2 ⟨r - 1, List.mem_range.2 (by omega), by omega⟩
  obtain ⟨⟨r', xs, ls, rests⟩, h1, h2⟩ := List.mem_map.1 hm
  dsimp only at h2
  subst h2
  exact ⟨xs, ls, rests, h1⟩

theorem checkRules_mem {s : Nat} {lab : List (Nat × Nat)} : ∀ {l : List (Nat × List Nat × List Nat × List (List Nat))}, checkRules s lab l = true →
    ∀ {r xs ls rests}, (r, xs, ls, rests) ∈ l → walkOK r lab ls xs s lab rests [(allProds, allMask)] = true := by
  intro l
  induction l with
  | nil => intro _ r xs ls rests h; cases h
  | cons q l ih =>
    intro h r xs ls rests hm
    obtain ⟨r', xs', ls', rests'⟩ := q
    simp only [checkRules, Bool.and_eq_true] at h
    rcases List.mem_cons.1 hm with e | hm
    · cases e; exact h.1
    · exact ih h.2 hm

/-- what is reduced is derived by a refined production whose class is a label of the state below -/
theorem reduce_class {r : Nat} {a : NT} {rhs : List Sym} {b s : Nat} {ys : List FSym} {ts : List Tok} {vs : List Val} {v : Val} {rest : List Tok}
    (hp : productions[r - 1]? = some (a, rhs)) (hr : r ≠ 0) (hb : b < 267) (hpath : Path rest b ys ts vs s) (hys : ys.map FSym.base = rhs)
    (hact : action s (lookahead rest) = .reduce r) (hsem : sem r vs = some v) :
    ∃ c m, FDeriv (.n c) ts v ∧ c.base = a ∧ find (row labTab b) (fntNum c) = some m ∧ m.testBit (lookahead rest) = true := by
  have hr148 : r ≤ 148 := by
    obtain ⟨h1, _⟩ := List.getElem?_eq_some_iff.1 hp
    have : productions.length = 148 := by decide +kernel
    omega
  obtain ⟨xs, ls, rests, hm⟩ := rule_mem (by omega) hr148
  have hok := List.all_eq_true.1 check_ruleTab _ hm
  simp only [ruleOK, production, if_neg hr, hp, Bool.and_eq_true, decide_eq_true_eq] at hok
  obtain ⟨⟨hxs, hlen⟩, hall⟩ := hok
  have hlen := Nat.eq_of_beq_eq_true hlen
  have hw := checkRules_mem (allBelow_spec _ 267 check_walk b hb) hm
  have hxs' : xs = ys.map (fun x => rnum x.base) := by
    rw [← hxs, ← hys, List.map_map]
    apply List.map_congr_left
    intro x _
    cases x <;> rfl
  rw [hxs'] at hw
  -- every refinement is a refined production
  have hmem : ∀ (i l : Nat) (rs : List Nat), ls[i]? = some l → rests[i]? = some rs → (l, r, rs) ∈ fcode := by
    intro i l rs h1 h2
    have : (l, rs) ∈ ls.zip rests := by
      apply List.mem_of_getElem? (i := i)
      rw [List.getElem?_zip_eq_some]
      exact ⟨h1, h2⟩
    have := List.all_eq_true.1 hall _ this
    simpa using this
  have hrests : ∀ rs ∈ rests, rs.length = ys.length := by
    intro rs hrs
    obtain ⟨i, hi⟩ := List.mem_iff_getElem?.1 hrs
    obtain ⟨hi1, _⟩ := List.getElem?_eq_some_iff.1 hi
    have hc := hmem i _ rs (List.getElem?_eq_getElem (by omega)) hi
    obtain ⟨a', rhs', hf, f1, f2⟩ := code_fine hc
    have := List.all_eq_true.1 fine_base _ hf
    simp only [Bool.or_eq_true, decide_eq_true_eq] at this
    have := this.resolve_left hr
    rw [hp] at this
    simp only [Option.some.injEq, Prod.mk.injEq] at this
    rw [← f2, List.length_map, ← List.length_map (f := FSym.base), ← this.2, ← hys, List.length_map]
  obtain ⟨i, l, m, zs, e1, e2, e3, e4, e5, e6⟩ := walk_spec r _ ls rest ys b rests [(allProds, allMask)] allProds allMask ts vs s hb hw hpath
    (List.mem_cons_self ..) (allMask_lookahead _) hact hrests hlen.symm
  obtain ⟨c, rhs', hf, f1, f2⟩ := code_fine (hmem i l zs e2 e3)
  have hbase := List.all_eq_true.1 fine_base _ hf
  simp only [Bool.or_eq_true, decide_eq_true_eq] at hbase
  have hbase := hbase.resolve_left hr
  rw [hp] at hbase
  simp only [Option.some.injEq, Prod.mk.injEq] at hbase
  refine ⟨c, m, ?_, hbase.1.symm, by rw [f1]; exact e5, e6⟩
  refine FDeriv.prod c r rhs' ts vs v hf hr ?_ hsem
  exact fits_deriv hpath (by rw [f2]; exact e4) (by rw [hys, hbase.2]) (fine_class hf).2

/-- What a step does to a good configuration that has consumed `ts`. -/
def FStepSpec (ts : List Tok) (c : Cfg) : Outcome → Prop
  | .next c' => ∃ ts', FGood c'.stack ts' c'.toks ∧ ts' ++ c'.toks = ts ++ c.toks
  | .done v => FDeriv (.n .file) ts v
  | .error => True

theorem fstep_spec (c : Cfg) (ts : List Tok) (h : FGood c.stack ts c.toks) : FStepSpec ts c (step c) := by
  obtain ⟨stk, toks⟩ := c
  unfold step
  cases stk with
  | nil => trivial
  | cons p st =>
    obtain ⟨s, v⟩ := p
    dsimp only at h ⊢
    have hs := fgood_lt h
    have hla := lookahead_lt toks
    have hact := allBelow_spec _ 64 (allBelow_spec _ 267 check_act s hs) (lookahead toks) hla
    unfold checkAct at hact
    cases ha : action s (lookahead toks) with
    | accept => trivial
    | err => trivial
    | shift n =>
      rw [ha] at hact
      dsimp only at hact ⊢
      cases toks with
      | nil => trivial
      | cons t toks =>
        exact ⟨ts ++ [t], FGood.push _ _ _ _ _ (.t t.kind) _ _ _ h ⟨FDeriv.tok t, hact, ha⟩, by simp⟩
    | reduce r =>
      rw [ha] at hact
      dsimp only at hact ⊢
      have hcr : checkReduce s r = true :=
        List.all_eq_true.1 (allBelow_spec _ 267 check_reduce s hs) r (by simpa using hact)
      unfold checkReduce production at hcr
      by_cases hr0 : r = 0
      · rw [if_pos hr0] at hcr; cases hcr
      · rw [if_neg hr0] at hcr
        cases hp : productions[r - 1]? with
        | none => rw [hp] at hcr; cases hcr
        | some q =>
          obtain ⟨a, rhs⟩ := q
          rw [hp] at hcr
          simp only [Bool.and_eq_true, decide_eq_true_eq] at hcr
          obtain ⟨hlen, hd⟩ := hcr
          obtain ⟨b, w, st', ts0, ts1, ys, e1, e2, e3, e4, e5, e6⟩ := fdescend _ _ s v st ts toks h (fun x hx => known_rhs hp x (List.mem_reverse.1 hx)) hd
          rw [List.length_reverse] at e1 e6
          rw [List.reverse_reverse] at e5
          rw [hlen]
          cases hsem : sem r (((((s, v) :: st).take rhs.length).map (·.2)).reverse) with
          | none => trivial
          | some v' =>
            dsimp only
            have hb : b < 267 := fgood_lt e2
            obtain ⟨c, m, d1, d2, d3, d4⟩ := reduce_class hp hr0 hb e6 e5 ha hsem
            by_cases h1 : r = 1
            · subst h1
              rw [if_pos rfl]
              have : productions[0]? = some (NT.file, [.n .stmts, .t K.eof]) := rfl
              rw [this] at hp
              cases hp
              rw [if_pos rfl, beq_iff_eq] at e4
              subst e4
              have hc : c = .file := by
                cases d1 with
                | prod _ r' _ _ _ _ hm =>
                  have key : fine.all (fun p => !decide (p.1.base = .file) || decide (p.1 = .file)) = true := by decide +kernel
                  have := List.all_eq_true.1 key _ hm
                  simpa [d2] using this
                | incl _ _ _ _ hm =>
                  have key : fine.all (fun p => !decide (p.1.base = .file) || decide (p.1 = .file)) = true := by decide +kernel
                  have := List.all_eq_true.1 key _ hm
                  simpa [d2] using this
              subst hc
              rw [e3, fgood_zero e2]
              exact d1
            · rw [if_neg h1, e1]
              dsimp only
              rw [if_neg h1] at e4
              have hgoto : goto_ b r = gotoN b (ntNum a) := by
                apply goto_eq
                have key : productions.length = 148 ∧ allBelow (fun i => match productions[i]? with
                    | some p => decide (look yyR1 (i + 1) = (ntNum p.1 : Int))
                    | none => false) 148 = true := by decide +kernel
                have hlt : r - 1 < 148 := by
                  obtain ⟨h1, _⟩ := List.getElem?_eq_some_iff.1 hp
                  rw [key.1] at h1
                  exact h1
                have := allBelow_spec _ 148 key.2 (r - 1) hlt
                rw [hp, show r - 1 + 1 = r by omega] at this
                exact of_decide_eq_true this
              refine ⟨ts0 ++ ts1, FGood.push _ _ _ _ _ (.n c) _ _ _ e2 ⟨d1, ?_, ?_, m, find_mem d3, d4⟩, by rw [e3]⟩
              · show edge b (goto_ b r) (-(ntNum c.base : Int)) = true
                rw [d2]; exact e4
              · rw [d2]; exact hgoto

theorem frun_spec (n : Nat) : ∀ (c : Cfg) (ts : List Tok) (l : List Expr), FGood c.stack ts c.toks → run n c = some l →
    ∃ ts1 ts2 v, ts ++ c.toks = ts1 ++ ts2 ∧ FDeriv (.n .file) ts1 v ∧ l = v.exprs := by
  induction n with
  | zero => intro c ts l _ h; cases h
  | succ n ih =>
    intro c ts l hg h
    have hs := fstep_spec c ts hg
    unfold run at h
    cases hstep : step c with
    | error => rw [hstep] at h; cases h
    | done v =>
      rw [hstep] at h hs
      cases h
      exact ⟨ts, c.toks, v, rfl, hs, rfl⟩
    | next c' =>
      rw [hstep] at h hs
      obtain ⟨ts', hg', he⟩ := hs
      obtain ⟨t1, t2, v, e, d, f⟩ := ih c' ts' l hg' h
      exact ⟨t1, t2, v, by rw [← he, e], d, f⟩

/-- **C62** What the parser accepts is a sentence of the unambiguous grammar, up to the end of the file, and the tree is the value of its derivation. -/
theorem C62_sound (ts : List Tok) (l : List Expr) (h : ParsesTo ts l) : ∃ ts1 ts2 v, ts = ts1 ++ ts2 ∧ FDeriv (.n .file) ts1 v ∧ l = v.exprs := by
  obtain ⟨n, hn⟩ := h
  obtain ⟨t1, t2, v, e, d, f⟩ := frun_spec n (initCfg ts) [] l (FGood.base _ _) hn
  exact ⟨t1, t2, v, e, d, f⟩

/-- **C62** A file parses to `l` exactly if its tokens have a derivation in the unambiguous grammar whose value has the statements `l`. -/
theorem C62_iff (data : Bytes) (ts : List Tok) (st : State) (l : List Expr) (ht : tokens data = .ok ts st) :
    ParsesTo ts l ↔ ∃ v, FDeriv (.n .file) ts v ∧ l = v.exprs := by
  constructor
  · intro h
    obtain ⟨t1, t2, v, e, d, f⟩ := C62_sound ts l h
    obtain ⟨a, t, e1, e2⟩ := deriv_file_last (C61_refines d)
    obtain ⟨cs, htl, _⟩ := Props.Lexer.C48_tiles data ts st ht
    have : t2 = [] := tiled_eof_last htl a t t2 (by rw [e, e1]; simp) e2
    subst this
    rw [List.append_nil] at e
    subst e
    exact ⟨v, d, f⟩
  · rintro ⟨v, d, rfl⟩
    exact C61_complete ts v d

/-- The unambiguous grammar has no conditional in a tuple without parentheses, except in first place, and the parser rejects it. -/
example : (match tokens b!"x = a, b if c else d\n" with
    | .ok ts _ => (run 400 (initCfg ts)).isSome
    | _ => false) = false := by decide +kernel

example : (match tokens b!"x = a if c else d, b\n" with
    | .ok ts _ => (run 400 (initCfg ts)).isSome
    | _ => false) = true := by decide +kernel

end Verif.Props.Grammar
