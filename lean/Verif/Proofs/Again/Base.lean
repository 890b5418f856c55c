import Verif.Proofs.PrintC
/-
Printing a tree that was read from printed text: the tree is laid out again as it was (`RQ`).
-/
namespace Verif.Again
open Verif Verif.Syntax Verif.Print Verif.Parser Verif.Round

/-- number of line ends in a text -/
def nl (s : Bytes) : Nat := s.count 10

/-- the line the printer is on -/
def line (st : St) : Nat := 1 + nl st.out

theorem nl_append (s t : Bytes) : nl (s ++ t) = nl s + nl t := List.count_append ..
@[simp] theorem nl_nil : nl [] = 0 := rfl
theorem nl_reverse (s : Bytes) : nl s.reverse = nl s := List.count_reverse ..
theorem nl_cons (c : UInt8) (s : Bytes) : nl (c :: s) = nl s + (if c = 10 then 1 else 0) := by
  unfold nl; rw [List.count_cons]; simp
theorem nl_spaces (n : Nat) : nl (spaces n) = 0 := by
  unfold nl spaces; rw [List.count_replicate]; simp

theorem line_emit (t : Bytes) (st : St) : line (emit t st) = line st + nl t := by
  show 1 + nl (t.reverse ++ st.out) = _
  rw [nl_append, nl_reverse]; unfold line; omega

theorem line_pos (st : St) : line st ≠ 0 := by unfold line; omega

theorem nl_dropWhile (s : Bytes) : nl (s.dropWhile (· == 32)) = nl s := by
  induction s with
  | nil => rfl
  | cons c s ih =>
    rw [List.dropWhile_cons]
    split
    · rename_i h
      have : c = 32 := by simpa using h
      subst this
      rw [ih, nl_cons]; simp
    · rfl

theorem line_newline {st : St} (h : Clean st) : line (newline st) = line st + 1 := by
  rw [newline_clean h, line_emit, nl_cons, nl_spaces]
  show 1 + nl (st.out.dropWhile (· == 32)) + _ = _
  rw [nl_dropWhile]; unfold line; simp

theorem line_breakline {st : St} (h : Clean st) : line (breakline st) = line st + 1 := by
  unfold breakline
  split
  · rw [line_emit]
    show _ + nl (32 :: 92 :: 10 :: spaces st.margin) = _
    rw [nl_cons, nl_cons, nl_cons, nl_spaces]; simp
  · exact line_newline h

/-- with enough budget, the printer goes from `st` to `r` on `y` -/
def Settles (ft : FileType) (y : Expr) (o : Nat) (st r : St) : Prop := ∃ N, ∀ f, N ≤ f → expr ft f y o st = r

def isLit : Expr → Bool
  | .literal .. | .ident _ => true
  | _ => false

/-- `y` was read from the text the printer wrote for `e` between the states `st` and `r`, and is printed like `e`. -/
structure RQ (ft : FileType) (e y : Expr) (o : Nat) (st r : St) : Prop where
  same : Same e y
  comm : y.comments = {}
  start : y.startPos.line = line st
  stop : y.endPos.line = line r
  again : Settles ft y o st r
  trail : o = 0 → ∀ m, needsTrailingComma m y = needsTrailingComma m e
  simple : o = 0 → isSimple e = true → isSimple y = true
  lit : isLit e = true → isLit y = true
  load : o = 0 → isLoad y = isLoad e

theorem same_isNil {e y : Expr} (h : Same e y) (he : e.isNil = false) : y.isNil = false := by
  cases h <;> first | rfl | exact he

theorem settles_body {ft : FileType} {y : Expr} {o : Nat} {st r : St} (hc : Clean st) (hy : y.comments = {})
    (h : ∃ N, ∀ f, N ≤ f → exprBody ft (expr ft f) f y o st = r) : Settles ft y o st r := by
  obtain ⟨N, h⟩ := h
  refine ⟨N + 1, fun f hf => ?_⟩
  cases f with
  | zero => omega
  | succ f => rw [expr_clean hc hy, h f (by omega)]; simp

theorem expr_body {ft : FileType} {f : Nat} {e : Expr} {o : Nat} {st : St} (hc : Clean st) (he : e.comments = {}) :
    expr ft (f + 1) e o st = exprBody ft (expr ft f) f e o st := by
  rw [expr_clean hc he]; simp

/-! ## Sequences -/

abbrev It := Expr × St

/-- the elements in compact mode with the states in which they are printed -/
def itemsC (pr : Pr) : Bool → List Expr → St → List It
  | _, [], _ => []
  | first, x :: l, st =>
    let st := if first then st else emit b!", " st
    (x, st) :: itemsC pr false l (pr x 0 st)

/-- the elements in multi-line mode with the states in which they are printed -/
def itemsM (pr : Pr) (mode : Mode) : Bool → List Expr → St → List It
  | _, [], _ => []
  | first, x :: l, st =>
    let st := newline (if first && !st.comment.isEmpty then emit (10 :: spaces (st.margin - 2)) st else st)
    (x, st) :: itemsM pr mode false l (if !l.isEmpty || needsTrailingComma mode x then emit b!"," (pr x 0 st) else pr x 0 st)

/-- the element `y` was read from what is printed for the item -/
abbrev RI (ft : FileType) (pr : Pr) (it : It) (y : Expr) : Prop := RQ ft it.1 y 0 it.2 (pr it.1 0 it.2)

/-- the element `y` is printed like the item -/
structure WI (ft : FileType) (pr : Pr) (it : It) (y : Expr) : Prop where
  again : Settles ft y 0 it.2 (pr it.1 0 it.2)
  trail : ∀ m, needsTrailingComma m y = needsTrailingComma m it.1
  nil_of : it.1.isNil = false → y.isNil = false

theorem RQ.weak {ft : FileType} {pr : Pr} {it : It} {y : Expr} (h : RI ft pr it y) : WI ft pr it y := ⟨h.again, h.trail rfl, same_isNil h.same⟩

theorem all2_imp {α β : Type} {r r' : α → β → Prop} {l : List α} {l' : List β} (h : All2 r l l') (hr : ∀ x y, r x y → r' x y) : All2 r' l l' := by
  induction h with
  | nil => exact .nil
  | cons x y l l' h1 _ ih => exact .cons _ _ _ _ (hr _ _ h1) ih

section
variable {ft : FileType} {pr : Pr}

theorem compact_again : ∀ {l l' : List Expr} {first : Bool} {st : St}, All2 (WI ft pr) (itemsC pr first l st) l' →
    ∃ N, ∀ F, N ≤ F → compactElems (expr ft F) first l' st = compactElems pr first l st := by
  intro l
  induction l with
  | nil => intro l' first st h; cases h; exact ⟨0, fun _ _ => rfl⟩
  | cons x l ih =>
    intro l' first st h
    cases h with
    | cons _ y _ l' h1 h2 =>
      obtain ⟨N1, e1⟩ := h1.again
      obtain ⟨N2, e2⟩ := ih h2
      refine ⟨N1 + N2, fun F hF => ?_⟩
      show compactElems (expr ft F) false l' (expr ft F y 0 _) = compactElems pr false l (pr x 0 _)
      rw [e1 F (by omega)]
      exact e2 F (by omega)

theorem compact_len : ∀ {r : It → Expr → Prop} {l l' : List Expr} {first : Bool} {st : St}, All2 r (itemsC pr first l st) l' → l'.length = l.length := by
  intro r l
  induction l with
  | nil => intro l' first st h; cases h; rfl
  | cons x l ih => intro l' first st h; cases h with | cons _ y _ l' h1 h2 => simp [ih h2]

theorem multi_len : ∀ {r : It → Expr → Prop} {m : Mode} {l l' : List Expr} {first : Bool} {st : St}, All2 r (itemsM pr m first l st) l' → l'.length = l.length := by
  intro r m l
  induction l with
  | nil => intro l' first st h; cases h; rfl
  | cons x l ih => intro l' first st h; cases h with | cons _ y _ l' h1 h2 => simp [ih h2]

theorem compact_samelines : ∀ {l l' : List Expr} {first : Bool} {st : St} {prev : Pos}, All2 (RI ft pr) (itemsC pr first l st) l' → prev.line = line st →
    ∃ p, samelines prev false l' = some (p, false) ∧ p.line = line (compactElems pr first l st) := by
  intro l
  induction l with
  | nil => intro l' first st prev h hp; cases h; exact ⟨prev, rfl, hp⟩
  | cons x l ih =>
    intro l' first st prev h hp
    cases h with
    | cons _ y _ l' h1 h2 =>
      have hs : line (if first then st else emit b!", " st) = line st := by
        split
        · rfl
        · rw [line_emit]; rfl
      unfold samelines
      have h1s : y.startPos.line = line (if first then st else emit b!", " st) := h1.start
      rw [if_neg (by unfold differentLines; rw [h1s, hs, hp]; simp), Bool.false_and]
      have h1e : y.endPos.line = line (pr x 0 (if first then st else emit b!", " st)) := h1.stop
      exact ih h2 (by rw [if_pos (by rw [h1e]; exact line_pos _)]; exact h1e)

theorem compact_loop : ∀ {l l' : List Expr} {first : Bool} {st : St}, All2 (RI ft pr) (itemsC pr first l st) l' → (∀ x ∈ l, isSimple x = true) →
    compactLoop (line st) l' = some (line (compactElems pr first l st)) := by
  intro l
  induction l with
  | nil => intro l' first st h hp; cases h; rfl
  | cons x l ih =>
    intro l' first st h hp
    cases h with
    | cons _ y _ l' h1 h2 =>
      have hs : line (if first then st else emit b!", " st) = line st := by
        split
        · rfl
        · rw [line_emit]; rfl
      have h1s : y.startPos.line = line (if first then st else emit b!", " st) := h1.start
      have h1e : y.endPos.line = line (pr x 0 (if first then st else emit b!", " st)) := h1.stop
      unfold compactLoop
      rw [if_neg (by rw [h1s, hs]; simp), if_pos (h1.simple rfl (hp x (by simp))), h1e]
      exact ih h2 (fun z hz => hp z (by simp [hz]))

theorem multi_again : ∀ {m : Mode} {l l' : List Expr} {first : Bool} {st : St}, All2 (WI ft pr) (itemsM pr m first l st) l' →
    ∃ N, ∀ F, N ≤ F → multiElems (expr ft F) m first l' st = multiElems pr m first l st := by
  intro m l
  induction l with
  | nil => intro l' first st h; cases h; exact ⟨0, fun _ _ => rfl⟩
  | cons x l ih =>
    intro l' first st h
    cases h with
    | cons _ y _ l' h1 h2 =>
      obtain ⟨N1, e1⟩ := h1.again
      obtain ⟨N2, e2⟩ := ih h2
      refine ⟨N1 + N2, fun F hF => ?_⟩
      have hlen := multi_len h2
      have hemp : l'.isEmpty = l.isEmpty := by cases l <;> cases l' <;> first | rfl | simp at hlen
      unfold multiElems
      dsimp only
      rw [e1 F (by omega), hemp, h1.trail m]
      exact e2 F (by omega)

theorem itemsC_mem : ∀ {l : List Expr} {first : Bool} {st : St} {it : It}, it ∈ itemsC pr first l st → it.1 ∈ l := by
  intro l
  induction l with
  | nil => intro first st it h; cases h
  | cons x l ih =>
    intro first st it h
    rcases List.mem_cons.1 h with rfl | h
    · simp
    · exact List.mem_cons_of_mem _ (ih h)

theorem itemsM_mem : ∀ {m : Mode} {l : List Expr} {first : Bool} {st : St} {it : It}, it ∈ itemsM pr m first l st → it.1 ∈ l := by
  intro m l
  induction l with
  | nil => intro first st it h; cases h
  | cons x l ih =>
    intro first st it h
    rcases List.mem_cons.1 h with rfl | h
    · simp
    · exact List.mem_cons_of_mem _ (ih h)

theorem all2_right {α β : Type} {r : α → β → Prop} {l : List α} {l' : List β} (h : All2 r l l') {p : β → Prop} (hp : ∀ x ∈ l, ∀ y, r x y → p y) : ∀ y ∈ l', p y := by
  induction h with
  | nil => intro y hy; cases hy
  | cons x y l l' h1 _ ih =>
    intro z hz
    rcases List.mem_cons.1 hz with rfl | hz
    · exact hp x (by simp) _ h1
    · exact ih (fun x hx => hp x (by simp [hx])) z hz

/-- the elements of a sequence with the states in which they are printed -/
def items (ft : FileType) (pr : Pr) (o : Bytes) (start : Pos) (l : List Expr) (e : Option EndN) (m : Mode) (fc fm : Bool) (st : St) : List It :=
  if useCompact ft (seqOpen m o st).level start l e m fc fm then itemsC pr true l (seqOpen m o st)
  else itemsM pr m true l { seqOpen m o st with margin := (seqOpen m o st).margin + (if m = .def_ then defIndentation else listIndentation) }

theorem items_mem {o start l e m fc fm st} {it : It} (h : it ∈ items ft pr o start l e m fc fm st) : it.1 ∈ l := by
  unfold items at h
  split at h
  · exact itemsC_mem h
  · exact itemsM_mem h

/-- what the printer looks at before the lines -/
theorem no_comments {l : List Expr} {m : Mode} (h : ∀ y ∈ l, y.comments = {}) :
    (l.any (fun x => !x.comments.before.isEmpty || (!x.comments.suffix.isEmpty && m != .def_))) = false := by
  rw [List.any_eq_false]
  intro y hy
  rw [h y hy]; simp

theorem not_differ {p q : Pos} (h : p.line = q.line) : differentLines p q = false := by unfold differentLines; rw [h]; simp
theorem differ {p q : Pos} (h : p.line ≠ q.line) (hp : p.line ≠ 0) (hq : q.line ≠ 0) : differentLines p q = true := by
  unfold differentLines; simp [h, hp, hq]

/-- the first element of a multi-line sequence starts on a new line -/
theorem multi_first {m : Mode} {l l' : List Expr} {st : St} (hc : Clean st) (h : All2 (RI ft pr) (itemsM pr m true l st) l') :
    l' = [] ∨ ∃ y l2, l' = y :: l2 ∧ y.startPos.line = line st + 1 := by
  cases l with
  | nil => cases h; exact .inl rfl
  | cons x l =>
    cases h with
    | cons _ y _ l' h1 h2 =>
      refine .inr ⟨y, l', rfl, ?_⟩
      have h1s : y.startPos.line = line (newline (if true && !st.comment.isEmpty then emit (10 :: spaces (st.margin - 2)) st else st)) := h1.start
      rw [h1s, hc.1]
      exact line_newline hc

theorem compact_ends : ∀ {l l' : List Expr} {st : St}, All2 (RI ft pr) (itemsC pr true l st) l' →
    (l' = [] ∧ line (compactElems pr true l st) = line st) ∨ (∃ y, l' = [y] ∧ y.startPos.line = line st ∧ y.endPos.line = line (compactElems pr true l st)) ∨ 2 ≤ l'.length := by
  intro l l' st h
  cases l with
  | nil => cases h; exact .inl ⟨rfl, rfl⟩
  | cons x l =>
    cases h with
    | cons _ y _ l' h1 h2 =>
      cases l with
      | nil => cases h2; exact .inr (.inl ⟨y, rfl, h1.start, h1.stop⟩)
      | cons x2 l => cases h2 with | cons => exact .inr (.inr (by simp))

theorem useCompact_eq {lv : Nat} {start : Pos} {l : List Expr} {e : EndN} {m : Mode} {fc fm : Bool} (hm : m ≠ .seq) (hcom : ∀ x ∈ l, x.comments = {}) (he : e.comments = {}) :
    useCompact ft lv start l (some e) m fc fm =
      if m = .call ∧ l = [] ∧ fm = false then true
      else if (lv ≠ 0 ∨ buildMode ft = false ∨ m = .def_) ∧ m ≠ .load then
        match samelines start (start.line == 0) l with
        | none => false
        | some (prev, new) => if differentLines prev e.pos then false else if new && e.pos.line == 0 then !fm else true
      else if fm then false
      else if fc then true
      else l.length ≤ 1 := by
  unfold useCompact
  rw [no_comments hcom]
  simp only [he, Bool.false_eq_true, if_false, List.isEmpty_nil, Bool.not_true, hm]
  rfl

/-- the second printing makes the same choice -/
theorem useCompact_again {o : Bytes} {start start' : Pos} {l l' : List Expr} {e e' : EndN} {m : Mode} {fc fm fc' fm' : Bool} {st : St} {lend : Nat}
    (hm : m ≠ .seq ∧ m ≠ .load ∧ m ≠ .def_) (ho : nl o = 0) (hcom : ∀ x ∈ l, x.comments = {}) (he : e.comments = {}) (he' : e'.comments = {}) (hc : Clean st)
    (hI : All2 (RI ft pr) (items ft pr o start l (some e) m fc fm st) l') (hs : start'.line = line st) (hend : e'.pos.line = lend) (hlz : lend ≠ 0)
    (hlend : useCompact ft (seqOpen m o st).level start l (some e) m fc fm = true → lend = line (compactElems pr true l (seqOpen m o st)))
    (hlend0 : useCompact ft (seqOpen m o st).level start l (some e) m fc fm = false → l = [] → lend ≠ line st)
    (hfm : fm' = forceMultiLine start' l' e'.pos)
    (hfc : (fc' = false ∧ fc = false) ∨ (fc' = forceCompact start' l' e'.pos ∧ (fc = true → ∀ x ∈ l, isSimple x = true))) :
    useCompact ft (seqOpen m o st).level start' l' (some e') m fc' fm' = useCompact ft (seqOpen m o st).level start l (some e) m fc fm := by
  obtain ⟨hm1, hm2, hm3⟩ := hm
  have hopen : line (seqOpen m o st) = line st := by
    unfold seqOpen; rw [if_neg hm1]
    show line (emit o st) = _
    rw [line_emit, ho]; rfl
  have hcom' : ∀ y ∈ l', y.comments = {} := all2_right hI (fun it _ y h => h.comm)
  have hlen : l'.length = l.length := by
    unfold items at hI; split at hI
    · exact compact_len hI
    · exact multi_len hI
  cases hU : useCompact ft (seqOpen m o st).level start l (some e) m fc fm with
  | true =>
    unfold items at hI
    rw [if_pos hU] at hI
    have hle := hlend hU
    obtain ⟨p, hsl, hpl⟩ := compact_samelines (prev := start') hI (by rw [hs, hopen])
    have hfm' : fm' = false := by
      rw [hfm]
      unfold forceMultiLine
      rcases compact_ends hI with ⟨rfl, h2⟩ | ⟨y, rfl, h2, h3⟩ | h
      · simp only; rw [hs, hend, hle, h2, hopen]; simp
      · simp only; rw [hs, hend, hle, h2, h3, hopen]; simp
      · match l', h with
        | _ :: _ :: _, _ => rfl
    rw [useCompact_eq hm1 hcom' he', hfm']
    split
    · rfl
    · split
      · rw [show (start'.line == 0) = false by rw [hs]; simp [line_pos], hsl]
        dsimp only
        rw [not_differ (by rw [hpl, hend, hle])]
        simp
      · rename_i h1 h2
        by_cases hl1 : l'.length ≤ 1
        · simp [hl1]
        · -- at least two elements: the first printing was forced
          rw [useCompact_eq hm1 hcom he] at hU
          rw [if_neg (by rintro ⟨_, rfl, _⟩; simp at hlen; simp [hlen] at hl1), if_neg h2] at hU
          have hfct : fc = true := by
            cases hfcv : fc with
            | true => rfl
            | false =>
              rw [hfcv] at hU
              cases fm
              · simp at hU; omega
              · simp at hU
          rcases hfc with ⟨_, h⟩ | ⟨h, hsim⟩
          · rw [h] at hfct; cases hfct
          · have : fc' = true := by
              rw [h]
              unfold forceCompact
              rw [if_neg hl1, hs, ← hopen, compact_loop hI (hsim hfct)]
              simp only
              rw [hend, hle]; simp
            rw [this]; simp
  | false =>
    unfold items at hI
    rw [if_neg (by rw [hU]; simp)] at hI
    have hfirst := multi_first (show Clean { seqOpen m o st with margin := (seqOpen m o st).margin + (if m = .def_ then defIndentation else listIndentation) } by
      unfold seqOpen; rw [if_neg hm1]; exact hc) hI
    have hopen' : line { seqOpen m o st with margin := (seqOpen m o st).margin + (if m = .def_ then defIndentation else listIndentation) } = line st := hopen
    rw [hopen'] at hfirst
    have hU0 := hlend0 hU
    have hl0 : l' = [] → lend ≠ line st := by
      intro h; apply hU0; rw [h] at hlen; exact List.length_eq_zero_iff.1 hlen.symm
    have hfmt : l'.length ≤ 1 → fm' = true := by
      intro hl
      rw [hfm]; unfold forceMultiLine
      rcases hfirst with h | ⟨y, l2, h, hy⟩
      · have := hl0 h
        subst h; simp only; rw [hs, hend]; simp; exact fun h => this h.symm
      · subst h
        cases l2 with
        | nil => simp only; rw [hs, hy]; simp
        | cons => simp at hl
    have hfcf : fc' = false := by
      rcases hfc with ⟨h, _⟩ | ⟨h, _⟩
      · exact h
      · rw [h]; unfold forceCompact
        split
        · rfl
        · rename_i hl
          rcases hfirst with h | ⟨y, l2, h, hy⟩
          · subst h; simp at hl
          · subst h
            unfold compactLoop
            rw [if_pos (by rw [hs, hy]; omega)]
    rw [useCompact_eq hm1 hcom' he', hfcf]
    rw [if_neg (by rintro ⟨_, h, h'⟩; rw [hfmt (by rw [h]; simp)] at h'; cases h')]
    have hz : (start'.line == 0) = false := by rw [hs]; simp [line_pos]
    rw [hz]
    rcases hfirst with h | ⟨y, l2, h, hy⟩
    · have := hl0 h
      rw [hfmt (by rw [h]; simp)]
      subst h
      split
      · unfold samelines
        dsimp only
        rw [differ (by rw [hs, hend]; exact fun h => this h.symm) (by rw [hs]; exact line_pos _) (by rw [hend]; exact hlz)]; rfl
      · simp
    · split
      · rw [h]
        unfold samelines
        rw [differ (by rw [hs, hy]; omega) (by rw [hy]; omega) (by rw [hs]; exact line_pos _)]; rfl
      · by_cases hl : l'.length ≤ 1
        · rw [hfmt hl]; rfl
        · cases fm' <;> simp [hl]

theorem all2_filter {l' : List Expr} (h : ∀ y ∈ l', y.isNil = false) : l'.filter (fun x => !x.isNil) = l' :=
  List.filter_eq_self.2 (fun x hx => by simp [h x hx])

theorem seqEnd_clean {e : EndN} {st : St} (he : e.comments = {}) : seqEnd (some e) st = st := by
  unfold seqEnd; simp only; rw [he]; rfl

theorem line_close {m : Mode} {c : Bytes} {st : St} (hm : m ≠ .seq) (hc : nl c = 0) : line (seqClose m c st) = line st := by
  unfold seqClose; rw [if_neg hm]
  rw [line_emit, hc]; rfl

theorem seq_parts {o c : Bytes} {start : Pos} {l : List Expr} {e : Option EndN} {m : Mode} {fc fm : Bool} {st : St} (hnil : ∀ x ∈ l, x.isNil = false) (pr : Pr) :
    seq ft pr o c start l e m fc fm st = seqClose m c (if useCompact ft (seqOpen m o st).level start l e m fc fm
      then seqCompact pr m l (seqOpen m o st) else seqMulti pr m l e (seqOpen m o st)) := by
  rw [seq_eq, all2_filter hnil]

/-- both ways of printing the elements, given the same choice -/
theorem seq_same {o c : Bytes} {start start' : Pos} {l l' : List Expr} {e e' : Option EndN} {m : Mode} {fc fm fc' fm' : Bool} {st : St}
    (hnil : ∀ x ∈ l, x.isNil = false) (he : ∀ st, seqEnd e st = st) (he' : ∀ st, seqEnd e' st = st)
    (hI : All2 (WI ft pr) (items ft pr o start l e m fc fm st) l')
    (hU : useCompact ft (seqOpen m o st).level start' l' e' m fc' fm' = useCompact ft (seqOpen m o st).level start l e m fc fm) :
    ∃ N, ∀ F, N ≤ F → seq ft (expr ft F) o c start' l' e' m fc' fm' st = seq ft pr o c start l e m fc fm st := by
  have hnil' : ∀ y ∈ l', y.isNil = false := all2_right hI (fun it hit y h => h.nil_of (hnil _ (items_mem hit)))
  have hlen : l'.length = l.length := by
    unfold items at hI; split at hI
    · exact compact_len hI
    · exact multi_len hI
  unfold items at hI
  cases hV : useCompact ft (seqOpen m o st).level start l e m fc fm with
  | true =>
    rw [if_pos hV] at hI
    obtain ⟨N, h⟩ := compact_again hI
    refine ⟨N, fun F hF => ?_⟩
    rw [seq_parts hnil, seq_parts hnil', hU, hV, if_pos rfl, if_pos rfl]
    unfold seqCompact
    rw [h F hF, hlen]
  | false =>
    rw [if_neg (by rw [hV]; simp)] at hI
    obtain ⟨N, h⟩ := multi_again hI
    refine ⟨N, fun F hF => ?_⟩
    rw [seq_parts hnil, seq_parts hnil', hU, hV, if_neg (by simp), if_neg (by simp)]
    unfold seqMulti
    dsimp only
    rw [he, he', h F hF]

theorem seq_again {o c : Bytes} {start start' : Pos} {l l' : List Expr} {e e' : EndN} {m : Mode} {fc fm fc' fm' : Bool} {st : St}
    (hm : m ≠ .seq ∧ m ≠ .load ∧ m ≠ .def_) (ho : nl o = 0) (hcl : nl c = 0) (hnil : ∀ x ∈ l, x.isNil = false) (hcom : ∀ x ∈ l, x.comments = {})
    (he : e.comments = {}) (he' : e'.comments = {}) (hc : Clean st)
    (hI : All2 (RI ft pr) (items ft pr o start l (some e) m fc fm st) l') (hs : start'.line = line st)
    (hend : e'.pos.line = line (seq ft pr o c start l (some e) m fc fm st))
    (hfm : fm' = forceMultiLine start' l' e'.pos)
    (hfc : (fc' = false ∧ fc = false) ∨ (fc' = forceCompact start' l' e'.pos ∧ (fc = true → ∀ x ∈ l, isSimple x = true))) :
    ∃ N, ∀ F, N ≤ F → seq ft (expr ft F) o c start' l' (some e') m fc' fm' st = seq ft pr o c start l (some e) m fc fm st := by
  refine seq_same hnil (fun _ => seqEnd_clean he) (fun _ => seqEnd_clean he') (all2_imp hI (fun _ _ h => h.weak)) ?_
  refine useCompact_again (lend := line (seq ft pr o c start l (some e) m fc fm st)) hm ho hcom he he' hc hI hs hend (line_pos _) ?_ ?_ hfm hfc
  · intro hU
    rw [seq_parts hnil, hU, if_pos rfl, line_close hm.1 hcl]
    unfold seqCompact
    dsimp only
    split
    · rw [line_emit]; rfl
    · rfl
  · intro hU hl
    subst hl
    rw [seq_parts hnil, hU, if_neg (by simp), line_close hm.1 hcl]
    unfold seqMulti
    dsimp only
    rw [seqEnd_clean he, if_neg hm.2.2, if_neg hm.2.2]
    have hcl : Clean (seqOpen m o st) := by unfold seqOpen; rw [if_neg hm.1]; exact hc
    rw [line_newline (by exact hcl)]
    show line (seqOpen m o st) + 1 ≠ _
    have : line (seqOpen m o st) = line st := by
      unfold seqOpen; rw [if_neg hm.1]
      show line (emit o st) = _
      rw [line_emit, ho]; rfl
    omega

/-! ## Sequences in brackets -/

theorem RQ.of {e y : Expr} {o : Nat} {st r : St} (hc : Clean st) (hsame : Same e y) (hcom : y.comments = {}) (h1 : y.startPos.line = line st) (h2 : y.endPos.line = line r)
    (h : ∃ N, ∀ F, N ≤ F → exprBody ft (expr ft F) F y o st = r) (h3 : o = 0 → ∀ m, needsTrailingComma m y = needsTrailingComma m e)
    (h4 : o = 0 → isSimple e = true → isSimple y = true) (h5 : isLit e = true → isLit y = true)
    (h6 : o = 0 → isLoad y = isLoad e := by exact fun _ => rfl) : RQ ft e y o st r :=
  ⟨hsame, hcom, h1, h2, settles_body hc hcom h, h3, h4, h5, h6⟩

theorem all2_same {its : List It} {l' : List Expr} (h : All2 (RI ft pr) its l') : SameL (its.map (·.1)) l' := by
  induction h with
  | nil => exact .nil
  | cons it y l l' h1 _ ih => exact .cons _ _ _ _ h1.same ih

theorem itemsC_map : ∀ {l : List Expr} {first : Bool} {st : St}, (itemsC pr first l st).map (·.1) = l := by
  intro l
  induction l with
  | nil => intros; rfl
  | cons x l ih => intro first st; show x :: (itemsC pr false l _).map (·.1) = _; rw [ih]

theorem itemsM_map : ∀ {m : Mode} {l : List Expr} {first : Bool} {st : St}, (itemsM pr m first l st).map (·.1) = l := by
  intro m l
  induction l with
  | nil => intros; rfl
  | cons x l ih => intro first st; show x :: (itemsM pr m false l _).map (·.1) = _; rw [ih]

theorem items_map {o start l e m fc fm st} : (items ft pr o start l e m fc fm st).map (·.1) = l := by
  unfold items; split
  · exact itemsC_map
  · exact itemsM_map

theorem items_same {o start l e m fc fm st l'} (h : All2 (RI ft pr) (items ft pr o start l e m fc fm st) l') : SameL l l' := by
  have := all2_same h
  rwa [items_map] at this

theorem sameL_empty {l l' : List Expr} (h : SameL l l') : l'.isEmpty = l.isEmpty := by cases h <;> rfl

theorem end_line (e : EndN) : e.endPos.line = e.pos.line := by
  show (e.pos.add _).line = _
  rfl

theorem r_list {s l en fm o st} {p : Pos} {l' : List Expr} {e' : EndN} (hen : en.comments = {}) (hl : ∀ x ∈ l, x.isNil = false ∧ x.comments = {}) (hc : Clean st)
    (hI : All2 (RI ft pr) (items ft pr b!"[" s l (some en) .list false fm st) l') (hp : p.line = line st) (he' : e'.comments = {})
    (hend : e'.pos.line = line (seq ft pr b!"[" b!"]" s l (some en) .list false fm st)) :
    RQ ft (.list {} s l en fm) (.list {} p l' e' (forceMultiLine p l' e'.pos)) o st (seq ft pr b!"[" b!"]" s l (some en) .list false fm st) := by
  refine RQ.of hc (Same.list _ _ _ _ _ _ _ _ _ _ (items_same hI)) rfl hp ((end_line e').trans hend) ?_ (fun _ m => by cases m <;> rfl) (fun _ h => ?_) (fun h => by cases h)
  · exact seq_again (by decide) (by decide) (by decide) (fun x hx => (hl x hx).1) (fun x hx => (hl x hx).2) hen he' hc hI hp hend rfl (.inl ⟨rfl, rfl⟩)
  · exact (sameL_empty (items_same hI)).trans h

end
end Verif.Again
