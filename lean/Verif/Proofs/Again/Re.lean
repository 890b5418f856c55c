import Verif.Proofs.Again.Base
/-
The second printing of each kind of expression.
-/
namespace Verif.Again
open Verif Verif.Syntax Verif.Print Verif.Parser Verif.Round

theorem line_depth (st : St) (d : Nat) : line { st with depth := d } = line st := rfl
theorem line_margin (st : St) (d : Nat) : line { st with margin := d } = line st := rfl

theorem withParen_le {prec o : Nat} {body : St → St} {st : St} (h : o ≤ prec) : withParen prec o body st = body st := by
  unfold withParen; rw [if_neg (by omega)]

theorem pos_add_line (p : Pos) (s : Bytes) : (p.add s).line = p.line + nl s := by
  unfold Pos.add
  dsimp only
  split
  · rfl
  · show p.line = p.line + s.count 10
    omega

section
variable {ft : FileType} {pr : Pr}

/-! ## Brackets -/

theorem r_set {s l en fm o st} {p : Pos} {l' : List Expr} {e' : EndN} (hen : en.comments = {}) (hl : ∀ x ∈ l, x.isNil = false ∧ x.comments = {}) (hc : Clean st)
    (hI : All2 (RI ft pr) (items ft pr b!"{" s l (some en) .list false fm st) l') (hp : p.line = line st) (he' : e'.comments = {})
    (hend : e'.pos.line = line (seq ft pr b!"{" b!"}" s l (some en) .list false fm st)) :
    RQ ft (.set {} s l en fm) (.set {} p l' e' (forceMultiLine p l' e'.pos)) o st (seq ft pr b!"{" b!"}" s l (some en) .list false fm st) := by
  refine RQ.of hc (Same.set _ _ _ _ _ _ _ _ _ _ (items_same hI)) rfl hp ((end_line e').trans hend) ?_ (fun _ m => by cases m <;> rfl) (fun _ h => ?_) (fun h => by cases h)
  · exact seq_again (by decide) (by decide) (by decide) (fun x hx => (hl x hx).1) (fun x hx => (hl x hx).2) hen he' hc hI hp hend rfl (.inl ⟨rfl, rfl⟩)
  · exact (sameL_empty (items_same hI)).trans h

theorem r_dict {s l en fm o st} {p : Pos} {l' : List Expr} {e' : EndN} (hen : en.comments = {}) (hl : ∀ x ∈ l, x.isNil = false ∧ x.comments = {}) (hc : Clean st)
    (hI : All2 (RI ft pr) (items ft pr b!"{" s l (some en) .dict false fm st) l') (hp : p.line = line st) (he' : e'.comments = {})
    (hend : e'.pos.line = line (seq ft pr b!"{" b!"}" s l (some en) .dict false fm st)) :
    RQ ft (.dict {} s l en fm) (.dict {} p l' e' (forceMultiLine p l' e'.pos)) o st (seq ft pr b!"{" b!"}" s l (some en) .dict false fm st) := by
  refine RQ.of hc (Same.dict _ _ _ _ _ _ _ _ _ _ (items_same hI)) rfl hp ((end_line e').trans hend) ?_ (fun _ m => by cases m <;> rfl) (fun _ h => ?_) (fun h => by cases h)
  · exact seq_again (by decide) (by decide) (by decide) (fun x hx => (hl x hx).1) (fun x hx => (hl x hx).2) hen he' hc hI hp hend rfl (.inl ⟨rfl, rfl⟩)
  · exact (sameL_empty (items_same hI)).trans h

theorem r_tuple {s l en fc fm o st} {p : Pos} {l' : List Expr} {e' : EndN} (hen : en.comments = {}) (hl : ∀ x ∈ l, x.isNil = false ∧ x.comments = {}) (hc : Clean st)
    (hfc : fc = true → ∀ x ∈ l, isSimple x = true)
    (hI : All2 (RI ft pr) (items ft pr b!"(" s l (some en) .tuple fc fm st) l') (hp : p.line = line st) (he' : e'.comments = {})
    (hend : e'.pos.line = line (seq ft pr b!"(" b!")" s l (some en) .tuple fc fm st)) :
    RQ ft (.tuple {} false s l en fc fm) (.tuple {} false p l' e' (forceCompact p l' e'.pos) (forceMultiLine p l' e'.pos)) o st
      (seq ft pr b!"(" b!")" s l (some en) .tuple fc fm st) := by
  refine RQ.of hc (Same.tuple _ _ _ _ _ _ _ _ _ _ _ _ _ (items_same hI)) rfl hp ((end_line e').trans hend) ?_ (fun _ m => by cases m <;> rfl) (fun _ h => ?_) (fun h => by cases h)
  · exact seq_again (m := .tuple) (by decide) (by decide) (by decide) (fun x hx => (hl x hx).1) (fun x hx => (hl x hx).2) hen he' hc hI hp hend rfl (.inr ⟨rfl, hfc⟩)
  · exact (sameL_empty (items_same hI)).trans h

theorem r_paren {s x en fm o st} {p : Pos} {x' : Expr} {e' : EndN} (hen : en.comments = {}) (hl : x.isNil = false ∧ x.comments = {}) (hc : Clean st)
    (hI : All2 (RI ft pr) (items ft pr b!"(" s [x] (some en) .paren false fm st) [x']) (hp : p.line = line st) (he' : e'.comments = {})
    (hend : e'.pos.line = line (seq ft pr b!"(" b!")" s [x] (some en) .paren false fm st)) :
    RQ ft (.paren {} s x en fm) (.paren {} p x' e' (forceMultiLine p [x'] e'.pos)) o st (seq ft pr b!"(" b!")" s [x] (some en) .paren false fm st) := by
  have hl' : ∀ a ∈ [x], a.isNil = false ∧ a.comments = {} := by intro a ha; rw [List.mem_singleton.1 ha]; exact hl
  refine RQ.of hc (Same.paren _ _ _ _ _ _ _ _ _ _ ?_) rfl hp ((end_line e').trans hend) ?_ (fun _ m => by cases m <;> rfl) (fun _ h => ?_) (fun h => by cases h)
  · have := items_same hI
    cases this with | cons _ _ _ _ h _ => exact h
  · exact seq_again (by decide) (by decide) (by decide) (fun x hx => (hl' x hx).1) (fun x hx => (hl' x hx).2) hen he' hc hI hp hend rfl (.inl ⟨rfl, rfl⟩)
  · cases h

/-- parentheses the printer adds -/
theorem r_added {e y : Expr} {o : Nat} {st r : St} {p : Pos} {e' : EndN} (ho : o ≠ 0) (hn : e.isNil = false) (hlit : isLit e = false) (hc : Clean st)
    (h : RQ ft e y 0 { emit b!"(" st with depth := st.depth + 1 } r) (hp : p.line = line st) (he' : e'.comments = {}) (hend : e'.pos.line = line r) :
    RQ ft e (.paren {} p y e' (forceMultiLine p [y] e'.pos)) o st (emit b!")" { r with depth := r.depth - 1 }) := by
  refine RQ.of hc (Same.added _ _ _ _ _ _ h.same) rfl hp ?_ ?_ (fun h => absurd h ho) (fun h => absurd h ho) (fun h => by rw [hlit] at h; cases h) (fun h => absurd h ho)
  · rw [line_emit]
    exact (end_line e').trans hend
  · obtain ⟨N, hN⟩ := h.again
    refine ⟨N, fun F hF => ?_⟩
    show seq ft (expr ft F) b!"(" b!")" p [y] (some e') .paren false _ st = _
    have hopen : line { emit b!"(" st with depth := st.depth + 1 } = line st := by
      show line (emit b!"(" st) = _
      rw [line_emit]; rfl
    have hfm : forceMultiLine p [y] e'.pos = false := by
      unfold forceMultiLine
      simp only
      rw [h.start, h.stop, hp, hend, hopen]; simp
    rw [hfm, seq_parts (by intro x hx; rw [List.mem_singleton.1 hx]; exact same_isNil h.same hn)]
    have hU : useCompact ft (seqOpen .paren b!"(" st).level p [y] (some e') .paren false false = true := by
      rw [useCompact_eq (by decide) (by intro x hx; rw [List.mem_singleton.1 hx]; exact h.comm) he', if_neg (by rintro ⟨h, _⟩; cases h)]
      split
      · unfold samelines samelines
        rw [not_differ (by rw [h.start, hp, hopen])]
        simp only [Bool.false_eq_true, if_false]
        have hpos : y.endPos.line ≠ 0 := by rw [h.stop]; exact line_pos _
        rw [if_pos hpos, not_differ (by rw [h.stop, hend])]
        simp only [Bool.false_eq_true, if_false]
        have : e'.pos.line ≠ 0 := by rw [hend]; exact line_pos _
        rw [show (e'.pos.line == 0) = false by simpa using this]
        simp
      · simp
    rw [hU, if_pos rfl]
    show emit b!")" { expr ft F y 0 (seqOpen .paren b!"(" st) with depth := (expr ft F y 0 (seqOpen .paren b!"(" st)).depth - 1 } = _
    have : expr ft F y 0 (seqOpen .paren b!"(" st) = r := hN F hF
    rw [this]

/-! ## Suffixes -/

theorem r_call {c : Comments} {x ls l en fc fm o st} {x' : Expr} {p : Pos} {l' : List Expr} {e' : EndN} (hft : ft ≠ .module) (ho : o ≤ 14) (hen : en.comments = {})
    (hl : ∀ x ∈ l, x.isNil = false ∧ x.comments = {}) (hc : Clean st) (hcx : Clean (pr x 14 st)) (hfc : fc = true → ∀ x ∈ l, isSimple x = true)
    (hx : RQ ft x x' 14 st (pr x 14 st)) (hI : All2 (RI ft pr) (items ft pr b!"(" ls l (some en) .call fc fm (pr x 14 st)) l')
    (hp : p.line = line (pr x 14 st)) (he' : e'.comments = {}) (hend : e'.pos.line = line (seq ft pr b!"(" b!")" ls l (some en) .call fc fm (pr x 14 st))) :
    RQ ft (.call c x ls l en fc fm) (.call {} x' p l' e' (forceCompact p l' e'.pos) (forceMultiLine p l' e'.pos)) o st
      (seq ft pr b!"(" b!")" ls l (some en) .call fc fm (pr x 14 st)) := by
  refine RQ.of hc (Same.call _ _ _ _ _ _ _ _ _ _ _ _ _ _ hx.same (items_same hI)) rfl hx.start ((end_line e').trans hend) ?_ (fun _ m => by cases m <;> rfl) (fun _ h => by cases h) (fun h => by cases h)
  obtain ⟨N1, h1⟩ := hx.again
  obtain ⟨N2, h2⟩ := seq_again (m := .call) (c := b!")") (by decide) (by decide) (by decide) (fun x hx => (hl x hx).1) (fun x hx => (hl x hx).2) hen he' hcx hI hp hend rfl (.inr ⟨rfl, hfc⟩)
  refine ⟨N1 + N2, fun F hF => ?_⟩
  show withParen precSuffix o (fun st => seq ft (expr ft F) b!"(" b!")" p l' (some e') .call
    (if (ft = .module && (isBazelDep _ || isUseRepoOrUseExtension _)) = true then _ else _) _ (expr ft F x' precSuffix st)) st = _
  rw [withParen_le (prec := precSuffix) ho]
  rw [show decide (ft = FileType.module) = false by simpa using hft, Bool.false_and, if_neg (by simp)]
  have : expr ft F x' precSuffix st = pr x 14 st := h1 F (by omega)
  rw [this]
  exact h2 F (by omega)

theorem r_index {c : Comments} {x p y en o st} {x' y' : Expr} {p' en' : Pos} (ho : o ≤ 14) (hc : Clean st) (hx : RQ ft x x' 14 st (pr x 14 st))
    (hy : RQ ft y y' 0 (emit b!"[" (pr x 14 st)) (pr y 0 (emit b!"[" (pr x 14 st))))
    (he : en'.line = line (pr y 0 (emit b!"[" (pr x 14 st)))) :
    RQ ft (.index c x p y en) (.index {} x' p' y' en') o st (emit b!"]" (pr y 0 (emit b!"[" (pr x 14 st)))) := by
  refine RQ.of hc (Same.index _ _ _ _ _ _ _ _ _ _ hx.same hy.same) rfl hx.start ?_ ?_ (fun _ m => by cases m <;> rfl) (fun _ h => by cases h) (fun h => by cases h)
  · rw [line_emit]; exact he
  obtain ⟨N1, h1⟩ := hx.again
  obtain ⟨N2, h2⟩ := hy.again
  refine ⟨N1 + N2, fun F hF => ?_⟩
  show withParen precSuffix o (fun st => emit b!"]" (expr ft F y' 0 (emit b!"[" (expr ft F x' precSuffix st)))) st = _
  rw [withParen_le (prec := precSuffix) ho, show expr ft F x' precSuffix st = pr x 14 st from h1 F (by omega), h2 F (by omega)]

/-- an optional part of a slice -/
def opt (pr : Pr) (e : Expr) (st : St) : St := if e.isNil then st else pr e 0 st

/-- the part, if there, was read from what is printed for it -/
def RO (ft : FileType) (pr : Pr) (e y : Expr) (st : St) : Prop := (e = .nil ∧ y = .nil) ∨ (e.isNil = false ∧ RQ ft e y 0 st (pr e 0 st))

theorem RO.same {e y : Expr} {st : St} (h : RO ft pr e y st) : Same e y := by
  rcases h with ⟨rfl, rfl⟩ | ⟨_, h⟩
  · exact .nil
  · exact h.same

theorem RO.again {e y : Expr} {st : St} (h : RO ft pr e y st) : ∃ N, ∀ F, N ≤ F → opt (expr ft F) y st = opt pr e st := by
  rcases h with ⟨rfl, rfl⟩ | ⟨hn, h⟩
  · exact ⟨0, fun _ _ => rfl⟩
  · obtain ⟨N, hN⟩ := h.again
    refine ⟨N, fun F hF => ?_⟩
    unfold opt
    rw [hn, same_isNil h.same hn]
    exact hN F hF

theorem r_slice {c : Comments} {x p fr c1 to c2 sp en o st} {x' fr' to' sp' : Expr} {p' c1' c2' en' : Pos} (ho : o ≤ 14) (hc : Clean st) (hx : RQ ft x x' 14 st (pr x 14 st))
    {s1 s2 s3 : St} (hs1 : s1 = opt pr fr (emit b!"[" (pr x 14 st))) (hs2 : s2 = opt pr to (emit b!":" s1))
    (hs3 : s3 = if c2.byte ≠ 0 then opt pr sp (emit b!":" s2) else s2)
    (hfr : RO ft pr fr fr' (emit b!"[" (pr x 14 st))) (hto : RO ft pr to to' (emit b!":" s1)) (hsp : c2.byte ≠ 0 → RO ft pr sp sp' (emit b!":" s2))
    (hsp0 : Same sp sp') (h2 : c2.byte = 0 ↔ c2'.byte = 0) (he : en'.line = line s3) :
    RQ ft (.slice c x p fr c1 to c2 sp en) (.slice {} x' p' fr' c1' to' c2' sp' en') o st (emit b!"]" s3) := by
  refine RQ.of hc (Same.slice _ _ _ _ _ _ _ _ _ _ _ _ _ _ _ _ _ _ hx.same hfr.same hto.same hsp0 h2) rfl hx.start ?_ ?_
    (fun _ m => by cases m <;> rfl) (fun _ h => by cases h) (fun h => by cases h)
  · rw [line_emit]; exact he
  obtain ⟨N1, h1⟩ := hx.again
  obtain ⟨N2, h2'⟩ := hfr.again
  obtain ⟨N3, h3⟩ := hto.again
  have hlast : ∃ N, ∀ F, N ≤ F → (if c2'.byte ≠ 0 then opt (expr ft F) sp' (emit b!":" s2) else s2) = s3 := by
    by_cases hb : c2.byte = 0
    · exact ⟨0, fun F _ => by rw [hs3, if_neg (by simpa using h2.1 hb), if_neg (by simpa using hb)]⟩
    · obtain ⟨N, h⟩ := (hsp hb).again
      exact ⟨N, fun F hF => by rw [hs3, if_pos (fun h' => hb (h2.2 h')), if_pos hb]; exact h F hF⟩
  obtain ⟨N4, h4⟩ := hlast
  refine ⟨N1 + N2 + N3 + N4, fun F hF => ?_⟩
  show withParen precSuffix o (fun st => emit b!"]" (if c2'.byte ≠ 0 then opt (expr ft F) sp' (emit b!":" (opt (expr ft F) to' (emit b!":" (opt (expr ft F) fr' (emit b!"[" (expr ft F x' precSuffix st))))))
    else opt (expr ft F) to' (emit b!":" (opt (expr ft F) fr' (emit b!"[" (expr ft F x' precSuffix st)))))) st = _
  rw [withParen_le (prec := precSuffix) ho, show expr ft F x' precSuffix st = pr x 14 st from h1 F (by omega), h2' F (by omega), ← hs1, h3 F (by omega), ← hs2, h4 F (by omega)]

theorem r_dot {c : Comments} {x dp np name o st} {x' : Expr} {dp' np' : Pos} (ho : o ≤ 14) (hc : Clean st) (hcx : Clean (pr x 14 st)) (hname : nl name = 0) (hx : RQ ft x x' 14 st (pr x 14 st))
    {r : St} (hr : r = if differentLines np x.endPos then
        { emit (b!"." ++ name) (breakline { pr x 14 st with margin := (pr x 14 st).margin + listIndentation }) with
          margin := (emit (b!"." ++ name) (breakline { pr x 14 st with margin := (pr x 14 st).margin + listIndentation })).margin - listIndentation }
      else emit (b!"." ++ name) (pr x 14 st)) (hnp : np'.line = line r) :
    RQ ft (.dot c x dp np name) (.dot {} x' dp' np' name) o st r := by
  refine RQ.of hc (Same.dot _ _ _ _ _ _ _ _ _ hx.same) rfl hx.start ?_ ?_ (fun _ m => by cases m <;> rfl) (fun _ h => by cases h) (fun h => by cases h)
  · show (np'.add name).line = _
    rw [pos_add_line, hname]; exact hnp
  obtain ⟨N1, h1⟩ := hx.again
  refine ⟨N1, fun F hF => ?_⟩
  show withParen precSuffix o (fun st => if differentLines np' x'.endPos then
        { emit (b!"." ++ name) (breakline { expr ft F x' precSuffix st with margin := (expr ft F x' precSuffix st).margin + listIndentation }) with
          margin := (emit (b!"." ++ name) (breakline { expr ft F x' precSuffix st with margin := (expr ft F x' precSuffix st).margin + listIndentation })).margin - listIndentation }
      else emit (b!"." ++ name) (expr ft F x' precSuffix st)) st = _
  rw [withParen_le (prec := precSuffix) ho, show expr ft F x' precSuffix st = pr x 14 st from h1 F (by omega)]
  have hdn : nl (b!"." ++ name) = 0 := by rw [nl_append, hname]; rfl
  cases hd : differentLines np x.endPos with
  | true =>
    rw [hd] at hr
    simp only [if_true] at hr
    have hl : line r = line (pr x 14 st) + 1 := by
      rw [hr]
      show line (emit _ _) = _
      rw [line_emit, hdn, line_breakline (by exact hcx)]; rfl
    rw [if_pos (differ (by rw [hx.stop, hnp, hl]; omega) (by rw [hnp]; exact line_pos _) (by rw [hx.stop]; exact line_pos _)), hr]
  | false =>
    rw [hd] at hr
    simp only [Bool.false_eq_true, if_false] at hr
    rw [if_neg (by rw [not_differ]; simp; rw [hx.stop, hnp, hr, line_emit, hdn]; rfl), hr]

/-! ## Operators -/

/-- what is printed for a unary operator -/
def unText (op : Bytes) : Bytes := if op = b!"not" then b!"not " else op

theorem isSimple_unary {c p op x} (h : isSimple (.unary c p op x) = true) : isLit x = true := by
  cases x <;> first | rfl | cases h

theorem isSimple_lit {c p op x} (h : isLit x = true) : isSimple (.unary c p op x) = true := by
  cases x <;> first | rfl | cases h

theorem r_unary {c : Comments} {p op x o st} {x' : Expr} {p' : Pos} (ho : o ≤ 13) (hc : Clean st) (hn : x.isNil = false) (hx : RQ ft x x' 14 (emit (unText op) st) (pr x 14 (emit (unText op) st)))
    (hp : p'.line = line st) :
    RQ ft (.unary c p op x) (.unary {} p' op x') o st (pr x 14 (emit (unText op) st)) := by
  have hn' := same_isNil hx.same hn
  refine RQ.of hc (Same.unary _ _ _ _ _ _ _ hx.same) rfl hp ?_ ?_ (fun _ m => by cases m <;> rfl) (fun _ h => isSimple_lit (hx.lit (isSimple_unary h))) (fun h => by cases h)
  · show (if x'.isNil then p' else x'.endPos).line = _
    rw [hn']; exact hx.stop
  obtain ⟨N1, h1⟩ := hx.again
  refine ⟨N1, fun F hF => ?_⟩
  show withParen precUnary o (fun st => if x'.isNil then (if op = b!"not" then emit b!"not " st else emit op st) else expr ft F x' precSuffix (if op = b!"not" then emit b!"not " st else emit op st)) st = _
  rw [withParen_le (prec := precUnary) ho]
  rw [hn', if_neg (by simp)]
  have : (if op = b!"not" then emit b!"not " st else emit op st) = emit (unText op) st := by unfold unText; split <;> rfl
  rw [this]
  exact h1 F hF

theorem r_bareStar {c : Comments} {p op o st} {p' : Pos} (ho : o ≤ 13) (hc : Clean st) (hop : nl op = 0) (hnot : op ≠ b!"not") (hp : p'.line = line st) :
    RQ ft (.unary c p op .nil) (.unary {} p' op .nil) o st (emit op st) := by
  refine RQ.of hc (Same.unary _ _ _ _ _ _ _ .nil) rfl hp ?_ ?_ (fun _ m => by cases m <;> rfl) (fun _ h => by cases h) (fun h => by cases h)
  · rw [line_emit, hop]; exact hp
  refine ⟨0, fun F hF => ?_⟩
  show withParen precUnary o (fun st => if Expr.nil.isNil then (if op = b!"not" then emit b!"not " st else emit op st) else _) st = _
  rw [withParen_le (prec := precUnary) ho]
  show (if op = b!"not" then emit b!"not " st else emit op st) = _
  rw [if_neg hnot]

/-- the states around a binary operator -/
def binX (lb : Bool) (mg : Nat) (st : St) : St := if lb then { st with margin := mg } else st
def binY (lb : Bool) (op : Bytes) (st : St) : St := if lb then breakline (emit (b!" " ++ op) st) else emit b!" " (emit (b!" " ++ op) st)

theorem line_binX (lb : Bool) (mg : Nat) (st : St) : line (binX lb mg st) = line st := by unfold binX; split <;> rfl
theorem line_binY {lb : Bool} {op : Bytes} {st : St} (hop : nl op = 0) (hc : Clean st) : line (binY lb op st) = line st + (if lb then 1 else 0) := by
  have hdn : nl (b!" " ++ op) = 0 := by rw [nl_append, hop]; rfl
  unfold binY
  split
  · rw [line_breakline (by exact hc), line_emit, hdn]
  · rw [line_emit, line_emit, hdn]; rfl

theorem lb_again {lb : Bool} {a b n : Nat} (h1 : a = n) (h2 : b = n + (if lb then 1 else 0)) : decide (a < b) = lb := by
  cases lb
  · simp at h2 ⊢; omega
  · simp at h2 ⊢; omega

theorem r_binary {c : Comments} {x p op lb y o st} {x' y' : Expr} {p' : Pos} {X Y : St} (ho : o ≤ opPrec op) (hop : nl op = 0) (hc : Clean st)
    (hX : X = binX lb (indent st) st) (hcx : Clean (pr x (opPrec op) X)) (hY : Y = binY lb op (pr x (opPrec op) X))
    (hx : RQ ft x x' (opPrec op) X (pr x (opPrec op) X)) (hy : RQ ft y y' (opPrec op + 1) Y (pr y (opPrec op + 1) Y)) :
    RQ ft (.binary c x p op lb y) (.binary {} x' p' op (decide (x'.endPos.line < y'.startPos.line)) y') o st { pr y (opPrec op + 1) Y with margin := st.margin } := by
  refine RQ.of hc (Same.binary _ _ _ _ _ _ _ _ _ _ _ hx.same hy.same) rfl ?_ hy.stop ?_ (fun _ m => by cases m <;> rfl) (fun _ h => by cases h) (fun h => by cases h)
  · exact hx.start.trans (by rw [hX, line_binX])
  obtain ⟨N1, h1⟩ := hx.again
  obtain ⟨N2, h2⟩ := hy.again
  refine ⟨N1 + N2, fun F hF => ?_⟩
  rw [lb_again hx.stop (by rw [hy.start, hY, line_binY hop hcx])]
  show withParen (opPrec op) o (fun st => { expr ft F y' (opPrec op + 1) (binY lb op (expr ft F x' (opPrec op) (binX lb (indent st) st))) with margin := st.margin }) st = _
  rw [withParen_le (prec := (opPrec op)) ho, ← hX, h1 F (by omega), ← hY, h2 F (by omega)]

theorem r_assign {c : Comments} {x p op lb y o st} {x' y' : Expr} {p' : Pos} {X Y : St} (ho : o ≤ 1) (hop : nl op = 0) (hc : Clean st)
    (hX : X = binX lb (indent st + listIndentation) st) (hcx : Clean (pr x 1 X)) (hY : Y = binY lb op (pr x 1 X))
    (hx : RQ ft x x' 1 X (pr x 1 X)) (hy : RQ ft y y' 2 Y (pr y 2 Y)) :
    RQ ft (.assign c x p op lb y) (.assign {} x' p' op (decide (x'.endPos.line < y'.startPos.line)) y') o st { pr y 2 Y with margin := st.margin } := by
  refine RQ.of hc (Same.assign _ _ _ _ _ _ _ _ _ _ _ hx.same hy.same) rfl ?_ hy.stop ?_ (fun _ m => by cases m <;> rfl) (fun _ h => by cases h) (fun h => by cases h)
  · exact hx.start.trans (by rw [hX, line_binX])
  obtain ⟨N1, h1⟩ := hx.again
  obtain ⟨N2, h2⟩ := hy.again
  refine ⟨N1 + N2, fun F hF => ?_⟩
  rw [lb_again hx.stop (by rw [hy.start, hY, line_binY hop hcx])]
  show withParen precAssign o (fun st => { expr ft F y' (precAssign + 1) (binY lb op (expr ft F x' precAssign (binX lb (indent st + listIndentation) st))) with margin := st.margin }) st = _
  rw [withParen_le (prec := precAssign) ho, ← hX, show expr ft F x' precAssign X = pr x 1 X from h1 F (by omega), ← hY, show expr ft F y' (precAssign + 1) Y = pr y 2 Y from h2 F (by omega)]

theorem r_cond {c : Comments} {t i te el e o st} {t' te' e' : Expr} {i' el' : Pos} (ho : o ≤ 14) (hc : Clean st)
    (ht : RQ ft t t' 3 st (pr t 3 st)) {s1 s2 : St} (hs1 : s1 = emit b!" if " (pr t 3 st)) (hte : RQ ft te te' 3 s1 (pr te 3 s1))
    (hs2 : s2 = emit b!" else " (pr te 3 s1)) (he : RQ ft e e' 3 s2 (pr e 3 s2)) :
    RQ ft (.cond c t i te el e) (.cond {} t' i' te' el' e') o st (pr e 3 s2) := by
  refine RQ.of hc (Same.cond _ _ _ _ _ _ _ _ _ _ _ _ ht.same hte.same he.same) rfl ht.start he.stop ?_ (fun _ m => by cases m <;> rfl) (fun _ h => by cases h) (fun h => by cases h)
  obtain ⟨N1, h1⟩ := ht.again
  obtain ⟨N2, h2⟩ := hte.again
  obtain ⟨N3, h3⟩ := he.again
  refine ⟨N1 + N2 + N3, fun F hF => ?_⟩
  show withParen precSuffix o (fun st => expr ft F e' precIfElse (emit b!" else " (expr ft F te' precIfElse (emit b!" if " (expr ft F t' precIfElse st))))) st = _
  rw [withParen_le (prec := precSuffix) ho, show expr ft F t' precIfElse st = pr t 3 st from h1 F (by omega), ← hs1, show expr ft F te' precIfElse s1 = pr te 3 s1 from h2 F (by omega), ← hs2]
  exact h3 F (by omega)

/-- the parameters of a lambda with the states in which they are printed -/
def itemsL (pr : Pr) : Bool → List Expr → St → List It
  | _, [], _ => []
  | first, x :: l, st =>
    let st := emit b!" " (if first then st else emit b!"," st)
    (x, st) :: itemsL pr false l (pr x 0 st)

theorem lambdaParams_again : ∀ {l l' : List Expr} {first : Bool} {st : St}, All2 (RI ft pr) (itemsL pr first l st) l' →
    SameL l l' ∧ ∃ N, ∀ F, N ≤ F → lambdaParams (expr ft F) first l' st = lambdaParams pr first l st := by
  intro l
  induction l with
  | nil => intro l' first st h; cases h; exact ⟨.nil, 0, fun _ _ => rfl⟩
  | cons x l ih =>
    intro l' first st h
    cases h with
    | cons _ y _ l' h1 h2 =>
      obtain ⟨N1, e1⟩ := h1.again
      obtain ⟨hs, N2, e2⟩ := ih h2
      refine ⟨.cons _ _ _ _ h1.same hs, N1 + N2, fun F hF => ?_⟩
      show lambdaParams (expr ft F) false l' (expr ft F y 0 _) = lambdaParams pr false l (pr x 0 _)
      rw [e1 F (by omega)]
      exact e2 F (by omega)

theorem r_lambda {c : Comments} {p ps b o st} {ps' : List Expr} {b' : Expr} {p' : Pos} (ho : o ≤ 2) (hc : Clean st) (hp : p'.line = line st)
    (hps : All2 (RI ft pr) (itemsL pr true ps (emit b!"lambda" st)) ps') {s1 : St} (hs1 : s1 = emit b!": " (lambdaParams pr true ps (emit b!"lambda" st)))
    (hb : RQ ft b b' 0 s1 (pr b 0 s1)) : RQ ft (.lambda c p ps [b]) (.lambda {} p' ps' [b']) o st (pr b 0 s1) := by
  obtain ⟨hss, N1, h1⟩ := lambdaParams_again hps
  refine RQ.of hc (Same.lambda _ _ _ _ _ _ _ _ hss (.cons _ _ _ _ hb.same .nil)) rfl hp hb.stop ?_ (fun _ m => by cases m <;> rfl) (fun _ h => by cases h) (fun h => by cases h)
  obtain ⟨N2, h2⟩ := hb.again
  refine ⟨N1 + N2, fun F hF => ?_⟩
  show withParen precColon o (fun st => expr ft F b' 0 (emit b!": " (lambdaParams (expr ft F) true ps' (emit b!"lambda" st)))) st = _
  rw [withParen_le (prec := precColon) ho, h1 F (by omega), ← hs1]
  exact h2 F (by omega)

/-! ## Comprehensions -/

/-- the clauses with the states in which they are printed -/
def itemsK (pr : Pr) (multi : Bool) : List Expr → St → List It
  | [], _ => []
  | x :: l, st =>
    let st := if multi then breakline st else emit b!" " st
    (x, st) :: itemsK pr multi l (pr x 0 st)

theorem clauses_again : ∀ {multi : Bool} {l l' : List Expr} {st : St}, All2 (RI ft pr) (itemsK pr multi l st) l' →
    SameL l l' ∧ (multi = false → comprLoop (line st) l' (line (clauseElems pr multi l st)) = false) ∧
      ∃ N, ∀ F, N ≤ F → clauseElems (expr ft F) multi l' st = clauseElems pr multi l st := by
  intro multi l
  induction l with
  | nil => intro l' st h; cases h; exact ⟨.nil, fun _ => by show (_ != _) = false; simp [clauseElems], 0, fun _ _ => rfl⟩
  | cons x l ih =>
    intro l' st h
    cases h with
    | cons _ y _ l' h1 h2 =>
      obtain ⟨N1, e1⟩ := h1.again
      obtain ⟨hs, hloop, N2, e2⟩ := ih h2
      refine ⟨.cons _ _ _ _ h1.same hs, ?_, N1 + N2, fun F hF => ?_⟩
      · intro hm
        have h3 : y.startPos.line = line (if multi then breakline st else emit b!" " st) := h1.start
        have h4 : y.endPos.line = line (pr x 0 (if multi then breakline st else emit b!" " st)) := h1.stop
        show (line st != y.startPos.line || comprLoop y.endPos.line l' _) = false
        rw [h3, h4, Bool.or_eq_false_iff]
        refine ⟨?_, hloop hm⟩
        rw [hm]
        simp only [Bool.false_eq_true, if_false]
        rw [line_emit]; simp [nl]
      · show clauseElems (expr ft F) multi l' (expr ft F y 0 _) = clauseElems pr multi l (pr x 0 _)
        rw [e1 F (by omega)]
        exact e2 F (by omega)

theorem r_compr {c : Comments} {curly : Bool} {s : Pos} {b : Expr} {cl : List Expr} {fm : Bool} {en : EndN} {o : Nat} {st : St} {p : Pos} {b' : Expr} {cl' : List Expr} {e' : EndN} {s1 : St}
    (hen : en.comments = {}) (he' : e'.comments = {}) (hc : Clean st)
    (hs1 : s1 = lfOpen curly fm st) (hb : RQ ft b b' 0 s1 (pr b 0 s1)) (hcl : All2 (RI ft pr) (itemsK pr fm cl (pr b 0 s1)) cl') (hp : p.line = line st)
    (hend : e'.pos.line = line (listFor pr curly b cl fm en st)) :
    RQ ft (.compr c curly s b cl fm en) (.compr {} curly p b' cl' (forceMultiLineCompr p b' cl' e'.pos) e') o st (listFor pr curly b cl fm en st) := by
  obtain ⟨hss, hloop, N1, h1⟩ := clauses_again hcl
  refine RQ.of hc (Same.compr _ _ _ _ _ _ _ _ _ _ _ _ _ hb.same hss) rfl hp ((end_line e').trans hend) ?_ (fun _ m => by cases m <;> rfl) (fun _ h => by cases h) (fun h => by cases h)
  obtain ⟨N2, h2⟩ := hb.again
  have hbr : ∀ cu : Bool, nl (if cu then b!"{" else b!"[") = 0 := by decide
  have hbr2 : ∀ cu : Bool, nl (if cu then b!"}" else b!"]") = 0 := by decide
  have hfm : forceMultiLineCompr p b' cl' e'.pos = fm := by
    unfold forceMultiLineCompr
    rw [hb.start, hb.stop, hend, hp]
    cases fm with
    | true =>
      have : line s1 = line st + 1 := by
        rw [hs1]; unfold lfOpen
        dsimp only
        rw [if_pos rfl, line_newline (by exact hc)]
        show line (emit _ _) + 1 = _
        rw [line_emit, hbr]; rfl
      rw [this]; simp
    | false =>
      have : line s1 = line st := by
        rw [hs1]; unfold lfOpen
        dsimp only
        rw [if_neg (by simp), line_emit, hbr]; rfl
      rw [this, listFor_eq _ _ _ _ _ _ hen, ← hs1]
      have h3 : line (lfClose curly (lfEnd false en (clauseElems pr false cl (pr b 0 s1)))) = line (clauseElems pr false cl (pr b 0 s1)) := by
        unfold lfClose
        show line (emit _ _) = _
        rw [line_emit, hbr2]; rfl
      simp only [h3, hloop rfl]
      simp
  refine ⟨N1 + N2, fun F hF => ?_⟩
  rw [hfm]
  show listFor (expr ft F) curly b' cl' fm e' st = _
  rw [listFor_eq _ _ _ _ _ _ he', listFor_eq _ _ _ _ _ _ hen, ← hs1, h2 F (by omega), h1 F (by omega)]
  unfold lfEnd
  rw [hen, he']

/-! ## Tuples without parentheses -/

theorem endPosLast_line : ∀ {l l' : List Expr} {first : Bool} {st : St}, l ≠ [] → All2 (RI ft pr) (itemsC pr first l st) l' → (endPosLast l').line = line (compactElems pr first l st) := by
  intro l
  induction l with
  | nil => intro l' first st h; exact absurd rfl h
  | cons x l ih =>
    intro l' first st _ h
    cases h with
    | cons _ y _ l' h1 h2 =>
      cases l with
      | nil => cases h2; exact h1.stop
      | cons x2 l =>
        cases h2 with
        | cons _ y2 _ l2 h3 h4 =>
          show (endPosLast (y2 :: l2)).line = _
          exact ih (by simp) (All2.cons _ y2 _ l2 h3 h4)

theorem r_bare {c : Comments} {s l en fc fm o st} {l' : List Expr} {e' : EndN} {p : Pos} {fc' fm' : Bool} (hen : en.comments = {}) (he' : e'.comments = {})
    (hn : l ≠ []) (hl : ∀ x ∈ l, x.isNil = false ∧ x.comments = {}) (hc : Clean st)
    (hI : All2 (RI ft pr) (itemsC pr true l { st with depth := st.depth + 1 }) l') :
    RQ ft (.tuple c true s l en fc fm) (.tuple {} true p l' e' fc' fm') o st (seq ft pr b!"(" b!")" s l (some en) .seq fc fm st) := by
  have hcom' : ∀ y ∈ l', y.comments = {} := all2_right hI (fun it _ y h => h.comm)
  have hU : ∀ (l : List Expr) (p : Pos) (e : EndN) (a b : Bool), (∀ x ∈ l, x.comments = {}) → e.comments = {} → useCompact ft st.level p l (some e) .seq a b = true := by
    intro l p e a b h1 h2
    unfold useCompact
    rw [no_comments h1]
    simp [h2]
  have hseq : seq ft pr b!"(" b!")" s l (some en) .seq fc fm st = { compactElems pr true l { st with depth := st.depth + 1 } with
      depth := (compactElems pr true l { st with depth := st.depth + 1 }).depth - 1 } := by
    rw [seq_parts (fun x hx => (hl x hx).1)]
    rw [show (seqOpen .seq b!"(" st).level = st.level from rfl, hU l s en fc fm (fun x hx => (hl x hx).2) hen, if_pos rfl]
    unfold seqCompact
    rw [if_neg (by rintro ⟨_, h⟩; cases h)]
    rfl
  have hI' : All2 (RI ft pr) (items ft pr b!"(" s l (some en) .seq fc fm st) l' := by
    unfold items
    rw [show (seqOpen .seq b!"(" st).level = st.level from rfl, hU l s en fc fm (fun x hx => (hl x hx).2) hen, if_pos rfl]
    exact hI
  refine RQ.of hc (Same.tuple _ _ _ _ _ _ _ _ _ _ _ _ _ (items_same hI')) rfl ?_ ?_ ?_ (fun _ m => by cases m <;> rfl) (fun _ h => ?_) (fun h => by cases h)
  · show (if true then startPosHead l' else p).line = _
    rw [if_pos rfl]
    cases l with
    | nil => exact absurd rfl hn
    | cons x l => cases hI with | cons _ y _ l' h1 h2 => exact h1.start
  · show (if true then endPosLast l' else e'.endPos).line = _
    rw [if_pos rfl, hseq]
    exact endPosLast_line hn hI
  · show ∃ N, ∀ F, N ≤ F → seq ft (expr ft F) b!"(" b!")" p l' (some e') .seq fc' fm' st = _
    refine seq_same (fun x hx => (hl x hx).1) (fun _ => seqEnd_clean hen) (fun _ => seqEnd_clean he') (all2_imp hI' (fun _ _ h => h.weak)) ?_
    rw [show (seqOpen .seq b!"(" st).level = st.level from rfl, hU l s en fc fm (fun x hx => (hl x hx).2) hen, hU l' p e' fc' fm' hcom' he']
  · exact (sameL_empty (items_same hI')).trans h

/-! ## Atoms, pairs, clauses -/

theorem r_ident {n n' : IdentN} {o st} (hc : Clean st) (hn : n'.name = n.name) (hcom : n'.comments = {}) (hnl : nl n.name = 0) (hp : n'.namePos.line = line st) :
    RQ ft (.ident n) (.ident n') o st (emit n.name st) := by
  refine RQ.of hc (Same.ident _ _ hn.symm) hcom hp ?_ ⟨0, fun F _ => ?_⟩ (fun _ m => by cases m <;> rfl) (fun _ h => rfl) (fun h => rfl)
  · show (n'.namePos.add n'.name).line = _
    rw [pos_add_line, hn, hnl, line_emit, hnl, hp]
  · show emit n'.name st = _
    rw [hn]

theorem r_literal {c : Comments} {p p' : Pos} {t : Bytes} {o st} (hc : Clean st) (hnl : nl t = 0) (hp : p'.line = line st) :
    RQ ft (.literal c p t) (.literal {} p' t) o st (emit t st) := by
  refine RQ.of hc (Same.literal _ _ _ _ _) rfl hp ?_ ⟨0, fun F _ => rfl⟩ (fun _ m => by cases m <;> rfl) (fun _ h => rfl) (fun h => rfl)
  show (p'.add t).line = _
  rw [pos_add_line, hnl, line_emit, hnl, hp]

theorem r_string {n n' : StringN} {t : Bytes} {o st} (hc : Clean st) (ht : Quote.printString t n.value n.triple = some t) (hcom : n'.comments = {})
    (h1 : n'.token = t) (h2 : n'.value = n.value) (h3 : n'.triple = n.triple) (hp : n'.start.line = line st) (he : n'.endPos = n'.start.add t) :
    RQ ft (.string n) (.string n') o st (emit t st) := by
  refine RQ.of hc (Same.string _ _ h2.symm h3.symm) hcom hp ?_ ⟨0, fun F _ => ?_⟩ (fun _ m => by cases m <;> rfl) (fun _ h => rfl) (fun h => by cases h)
  · show n'.endPos.line = _
    rw [he, pos_add_line, line_emit, hp]
  · show (match Quote.printString n'.token n'.value n'.triple with
      | some s => emit s st
      | none => { st with bad := true }) = _
    rw [h1, h2, h3, ht]

theorem r_typed {c : Comments} {n n' : IdentN} {t t' : Expr} {o st} (hc : Clean st) (hn : n'.name = n.name) (hcom : n'.comments = {}) (hp : n'.namePos.line = line st)
    {s1 : St} (hs1 : s1 = emit b!": " (emit n.name st)) (ht : RQ ft t t' 0 s1 (pr t 0 s1)) :
    RQ ft (.typedIdent c n t) (.typedIdent {} n' t') o st (pr t 0 s1) := by
  refine RQ.of hc (Same.typedIdent _ _ _ _ _ _ hn.symm ht.same) rfl hp ht.stop ?_ (fun _ m => by cases m <;> rfl) (fun _ h => by cases h) (fun h => by cases h)
  obtain ⟨N, h⟩ := ht.again
  refine ⟨N + 1, fun F hF => ?_⟩
  show expr ft F t' 0 (emit b!": " (expr ft F (.ident n') 0 st)) = _
  have : expr ft F (.ident n') 0 st = emit n.name st := by
    cases F with
    | zero => omega
    | succ F => rw [expr_body (e := .ident n') hc hcom]; show emit n'.name st = _; rw [hn]
  rw [this, ← hs1]
  exact h F (by omega)

theorem r_kv {c : Comments} {k p v o st} {k' v' : Expr} {p' : Pos} (hc : Clean st) (hk : RQ ft k k' 0 st (pr k 0 st)) {s1 : St} (hs1 : s1 = emit b!": " (pr k 0 st))
    (hv : RQ ft v v' 0 s1 (pr v 0 s1)) : RQ ft (.keyValue c k p v) (.keyValue {} k' p' v') o st (pr v 0 s1) := by
  refine RQ.of hc (Same.keyValue _ _ _ _ _ _ _ _ hk.same hv.same) rfl hk.start hv.stop ?_ (fun _ m => by cases m <;> rfl) (fun _ h => by cases h) (fun h => by cases h)
  obtain ⟨N1, h1⟩ := hk.again
  obtain ⟨N2, h2⟩ := hv.again
  refine ⟨N1 + N2, fun F hF => ?_⟩
  show expr ft F v' 0 (emit b!": " (expr ft F k' 0 st)) = _
  rw [h1 F (by omega), ← hs1]
  exact h2 F (by omega)

theorem r_forClause {c : Comments} {p v i x o st} {v' x' : Expr} {p' i' : Pos} (hc : Clean st) (hp : p'.line = line st)
    {s0 s1 : St} (hs0 : s0 = emit b!"for " st) (hv : RQ ft v v' 0 s0 (pr v 0 s0)) (hs1 : s1 = emit b!" in " (pr v 0 s0))
    (hx : RQ ft x x' 0 s1 (pr x 0 s1)) : RQ ft (.forClause c p v i x) (.forClause {} p' v' i' x') o st (pr x 0 s1) := by
  refine RQ.of hc (Same.forClause _ _ _ _ _ _ _ _ _ _ hv.same hx.same) rfl hp hx.stop ?_ (fun _ m => by cases m <;> rfl) (fun _ h => by cases h) (fun h => by cases h)
  obtain ⟨N1, h1⟩ := hv.again
  obtain ⟨N2, h2⟩ := hx.again
  refine ⟨N1 + N2, fun F hF => ?_⟩
  show expr ft F x' 0 (emit b!" in " (expr ft F v' 0 (emit b!"for " st))) = _
  rw [← hs0, h1 F (by omega), ← hs1]
  exact h2 F (by omega)

theorem r_ifClause {c : Comments} {p x o st} {x' : Expr} {p' : Pos} (hc : Clean st) (hp : p'.line = line st)
    {s1 : St} (hs1 : s1 = emit b!"if " st) (hx : RQ ft x x' 0 s1 (pr x 0 s1)) : RQ ft (.ifClause c p x) (.ifClause {} p' x') o st (pr x 0 s1) := by
  refine RQ.of hc (Same.ifClause _ _ _ _ _ _ hx.same) rfl hp hx.stop ?_ (fun _ m => by cases m <;> rfl) (fun _ h => by cases h) (fun h => by cases h)
  obtain ⟨N2, h2⟩ := hx.again
  refine ⟨N2, fun F hF => ?_⟩
  show expr ft F x' 0 (emit b!"if " st) = _
  rw [← hs1]
  exact h2 F (by omega)

end
end Verif.Again
