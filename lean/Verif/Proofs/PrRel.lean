import Verif.Props.PrintedSpec
import Verif.Proofs.PrKeep
/-
Relations between printer states that are kept by every step of the printer.
-/
namespace Verif.Printed
open Verif Verif.Syntax Verif.Print Verif.Round Verif.Walk Verif.Parser

/-- a relation between states, with the comments shown in between -/
structure Steps (T : Bytes → Bool) (q : Bool) (R : List Comment → St → St → Prop) : Prop where
  plain : ∀ s : Bytes, 10 ∉ s → T s = true
  cons : ∀ (c : UInt8) s, c ≠ 10 → T s = true → T (c :: s) = true
  trans : ∀ {l m a b c}, R l a b → R m b c → R (l ++ m) a c
  perm : ∀ {l m a b}, l.Perm m → R l a b → R m a b
  same : ∀ {a b : St}, b.out = a.out → b.comment = a.comment → b.bad = a.bad → R [] a b
  emit : ∀ s a, T s = true → R [] a (emit s a)
  nl : ∀ k (a : St), (q = true → a.out.head? ≠ some 32) → R [] a (Print.emit (10 :: spaces k) a)
  cont : ∀ a, R [] a (Print.emit (b!" \\\n" ++ spaces a.margin) a)
  spaces : ∀ k a, R [] a (Print.emit (spaces k) a)
  trim : ∀ a, R [] a (trim a)
  com : ∀ c a, R [c] a (Print.emit (comText c) a)
  pend : ∀ l (a : St), R l a { a with comment := a.comment ++ l }
  newline : ∀ a, R [] a (newline a)

/-- the comments before a closing bracket -/
def endB : Option EndN → List Comment
  | some e => e.comments.before
  | none => []

section
variable {T : Bytes → Bool} {q : Bool} {R : List Comment → St → St → Prop} (S : Steps T q R)
include S

theorem Steps.refl (a : St) : R [] a a := S.same rfl rfl rfl

theorem Steps.tr {l m n a b c} (h1 : R l a b) (h2 : R m b c) (hn : (l ++ m).Perm n) : R n a c := S.perm hn (S.trans h1 h2)

/-- a fixed text -/
theorem Steps.em (s : Bytes) (a : St) (h : 10 ∉ s := by decide) : R [] a (Print.emit s a) := S.emit s a (S.plain s h)

/-- a silent step first -/
theorem Steps.pre {l a b c} (h1 : R [] a b) (h2 : R l b c) : R l a c := S.trans h1 h2

/-- a silent step last -/
theorem Steps.post {l a b c} (h1 : R l a b) (h2 : R [] b c) : R l a c := by
  have := S.trans h1 h2
  rwa [List.append_nil] at this

omit S in
theorem ite' {p : Prop} [Decidable p] {l a b c} (h1 : R l a b) (h2 : R l a c) : R l a (if p then b else c) := by
  split
  · exact h1
  · exact h2

theorem Steps.nif (a : St) : R [] a (newlineIfNeeded a) := by
  unfold newlineIfNeeded
  exact ite' (S.newline a) (S.refl a)

theorem Steps.breakline (a : St) : R [] a (breakline a) := by
  unfold Print.breakline
  exact ite' (S.cont a) (S.newline a)

theorem Steps.after : ∀ (l : List Comment) (a : St), R l a (afterComments l a) := by
  intro l
  induction l with
  | nil => intro a; exact S.refl a
  | cons c l ih =>
    intro a
    exact S.trans (l := [c]) (b := softNewline (Print.emit (comText c) (newlineIfNeeded a))) (S.pre (S.nif a) (S.post (S.com c _) (S.same rfl rfl rfl))) (ih _)

theorem Steps.endC : ∀ (l : List Comment) (a : St), R l a (endComments l a) := by
  intro l
  induction l with
  | nil => intro a; exact S.refl a
  | cons c l ih =>
    intro a
    exact S.trans (l := [c]) (S.pre (S.newline a) (S.com c _)) (ih _)

theorem Steps.fileC : ∀ (l : List Comment) (a : St), R l a (fileComments l a) := by
  intro l
  induction l with
  | nil => intro a; exact S.refl a
  | cons c l ih =>
    intro a
    exact S.trans (l := [c]) (S.post (S.com c a) (S.newline _)) (ih _)

theorem Steps.foldC : ∀ (l : List Comment) (a : St), R l a (l.foldl (fun st c => Print.newline (Print.emit (comText c) st)) a) := by
  intro l
  induction l with
  | nil => intro a; exact S.refl a
  | cons c l ih =>
    intro a
    exact S.trans (l := [c]) (S.post (S.com c a) (S.newline _)) (ih _)

theorem Steps.before (l : List Comment) (a : St) : R l a (beforeComments l a) := by
  unfold beforeComments
  by_cases h : l.isEmpty = true
  · rw [if_pos h]
    have : l = [] := by simpa using h
    rw [this]
    exact S.refl a
  · rw [if_neg h]
    dsimp only
    refine S.pre (S.trim a) (S.pre (b := if Print.indent (Print.trim a) > 0 then Print.emit b!"\n" (Print.trim a) else Print.trim a) ?_ (S.pre (S.spaces _ _) (S.foldC l _)))
    refine ite' (S.nl 0 _ (fun _ => ?_)) (S.refl _)
    show (a.out.dropWhile (· == 32)).head? ≠ some 32
    intro h
    have := List.head?_dropWhile_not (· == 32) a.out
    rw [h] at this
    exact absurd this (by decide)

/-- `pr` does what it should on fit T q trees of size at most `n` -/
def Good (T : Bytes → Bool) (q : Bool) (R : List Comment → St → St → Prop) (n : Nat) (pr : Pr) : Prop := ∀ e o st, fit T q e = true → size e + 2 ≤ n → R (shown e) st (pr e o st)

variable {ft : FileType} {pr : Pr} {n : Nat} (G : Good T q R n pr)

omit S in
theorem filter_shownL : ∀ l : List Expr, shownL (l.filter (fun x => !x.isNil)) = shownL l := by
  intro l
  induction l with
  | nil => rfl
  | cons x l ih =>
    cases h : x.isNil
    · rw [List.filter_cons, h]
      show shown x ++ shownL (l.filter _) = shown x ++ shownL l
      rw [ih]
    · rw [List.filter_cons, h]
      have : x = .nil := by cases x <;> simp_all [Expr.isNil]
      rw [this]
      exact ih

omit S in
theorem isNil_eq {x : Expr} (h : x.isNil = true) : x = .nil := by cases x <;> simp_all [Expr.isNil]

omit S in
theorem filter_shownS : ∀ l : List Expr, shownS (l.filter (fun x => !x.isNil)) = shownS l := by
  intro l
  induction l with
  | nil => rfl
  | cons x l ih =>
    cases h : x.isNil
    · rw [List.filter_cons, h]
      show shown x ++ (x.comments.after ++ shownS (l.filter _)) = shown x ++ (x.comments.after ++ shownS l)
      rw [ih]
    · rw [List.filter_cons, h, isNil_eq h]
      exact ih

omit S in
theorem filter_whole : ∀ l : List Expr, fitO T q l = true → fitL T q (l.filter (fun x => !x.isNil)) = true := by
  intro l
  induction l with
  | nil => intro; rfl
  | cons x l ih =>
    intro h
    unfold fitO at h
    simp only [Bool.and_eq_true, Bool.or_eq_true] at h
    cases hn : x.isNil
    · rw [List.filter_cons, hn]
      show (fit T q x && fitL T q (l.filter _)) = true
      rw [ih h.2, Bool.and_true]
      rcases h.1 with h1 | h1
      · rw [hn] at h1; cases h1
      · exact h1
    · rw [List.filter_cons, hn]
      exact ih h.2

omit S in
theorem filter_size : ∀ l : List Expr, sizeL (l.filter (fun x => !x.isNil)) ≤ sizeL l := by
  intro l
  induction l with
  | nil => exact Nat.le_refl _
  | cons x l ih =>
    cases hn : x.isNil
    · rw [List.filter_cons, hn]
      show size x + sizeL (l.filter _) ≤ size x + sizeL l
      omega
    · rw [List.filter_cons, hn]
      show sizeL (l.filter _) ≤ size x + sizeL l
      omega

omit S in
theorem mem_size {x : Expr} : ∀ {l : List Expr}, x ∈ l → size x ≤ sizeL l := by
  intro l
  induction l with
  | nil => intro h; cases h
  | cons y l ih =>
    intro h
    show size x ≤ size y + sizeL l
    rcases List.mem_cons.1 h with rfl | h
    · omega
    · have := ih h; omega

omit S in
theorem size_pos (e : Expr) : 1 ≤ size e := by
  cases e <;> simp only [size] <;> omega

include G

theorem s_stmtLoop : ∀ (l : List Expr) (st : St), fitL T q l = true → sizeL l + 2 ≤ n → R (shownS l) st (stmtLoop ft pr l st) := by
  intro l
  induction l with
  | nil => intro st _ _; exact S.refl st
  | cons s l ih =>
    intro st hw hs
    unfold fitL at hw
    simp only [Bool.and_eq_true] at hw
    unfold sizeL at hs
    have h1 : R (shown s ++ s.comments.after) st (afterComments s.comments.after (if isCommentBlock s then pr s 0 st else softNewline (pr s 0 st))) := by
      refine S.trans (S.post (G s 0 st hw.1 (by omega)) ?_) (S.after _ _)
      exact ite' (S.refl _) (S.same rfl rfl rfl)
    unfold stmtLoop
    dsimp only
    cases l with
    | nil =>
      show R (shown s ++ (s.comments.after ++ [])) st _
      rw [List.append_nil]
      exact h1
    | cons s2 l' =>
      dsimp only
      show R (shown s ++ (s.comments.after ++ shownS (s2 :: l'))) st _
      rw [← List.append_assoc]
      refine S.trans h1 (S.pre (S.newline _) (S.pre ?_ (ih _ hw.2 (by omega))))
      exact ite' (S.refl _) (S.newline _)

theorem s_statements (l : List Expr) (st : St) (hw : fitO T q l = true) (hs : sizeL l + 2 ≤ n) : R (shownS l) st (statements ft pr l st) := by
  unfold statements
  have := s_stmtLoop S G (ft := ft) _ st (filter_whole l hw) (Nat.le_trans (Nat.add_le_add_right (filter_size l) 2) hs)
  rwa [filter_shownS] at this

theorem s_nested (l : List Expr) (st : St) (hw : fitO T q l = true) (hs : sizeL l + 2 ≤ n) : R (shownS l) st (nestedStatements ft pr l st) := by
  unfold nestedStatements
  dsimp only
  refine S.pre (b := { st with margin := st.margin + nestedIndentation, level := st.level + 1 }) (S.same rfl rfl rfl) (S.pre (S.newline _) (S.post (s_statements S G l _ hw hs) (S.same rfl rfl rfl)))

theorem s_compact : ∀ (l : List Expr) (b : Bool) (st : St), fitL T q l = true → (∀ x ∈ l, size x + 2 ≤ n) → R (shownL l) st (compactElems pr b l st) := by
  intro l
  induction l with
  | nil => intro b st _ _; exact S.refl st
  | cons x l ih =>
    intro b st hw hs
    unfold fitL at hw
    simp only [Bool.and_eq_true] at hw
    unfold compactElems
    exact S.trans (S.pre (ite' (S.refl _) (S.em _ _)) (G x 0 _ hw.1 (hs x List.mem_cons_self))) (ih false _ hw.2 (fun y hy => hs y (List.mem_cons_of_mem _ hy)))

theorem s_multi (m : Mode) : ∀ (l : List Expr) (b : Bool) (st : St), (b = true → q = true → st.out.head? ≠ some 32) → fitL T q l = true → (∀ x ∈ l, size x + 2 ≤ n) →
    R (shownL l) st (multiElems pr m b l st) := by
  intro l
  induction l with
  | nil => intro b st _ _ _; exact S.refl st
  | cons x l ih =>
    intro b st hb hw hs
    unfold fitL at hw
    simp only [Bool.and_eq_true] at hw
    unfold multiElems
    dsimp only
    refine S.trans (l := shown x) ?_ (ih false _ (fun h => by cases h) hw.2 (fun y hy => hs y (List.mem_cons_of_mem _ hy)))
    refine S.pre (b := if b && !st.comment.isEmpty then Print.emit (10 :: spaces (st.margin - 2)) st else st) ?_ ?_
    · by_cases h : (b && !st.comment.isEmpty) = true
      · rw [if_pos h]
        simp only [Bool.and_eq_true] at h
        exact S.nl _ _ (hb h.1)
      · rw [if_neg h]; exact S.refl _
    exact S.pre (S.newline _) (S.post (G x 0 _ hw.1 (hs x List.mem_cons_self)) (ite' (S.em _ _) (S.refl _)))

/-- the comments before the closing bracket -/
theorem s_seq (o c : Bytes) (start : Pos) (l : List Expr) (e : Option EndN) (m : Mode) (fc fm : Bool) (st : St) (ho : 10 ∉ o ∧ o.reverse ≠ [] ∧ o.reverse.head? ≠ some 32) (hcl : 10 ∉ c)
    (hb : m = .seq → q = true → ∀ e', e = some e' → bareTuple l e' = true) (hne : m = .seq → e ≠ none) (hw : fitO T q l = true) (hs : ∀ x ∈ l, size x + 2 ≤ n) :
    R (shownL l ++ endB e) st (seq ft pr o c start l e m fc fm st) := by
  rw [seq_eq]
  have hw' := filter_whole l hw
  have hs' : ∀ x ∈ l.filter (fun x => !x.isNil), size x + 2 ≤ n := fun x hx => hs x (List.mem_filter.1 hx).1
  rw [← filter_shownL l]
  have hb' : m = .seq → q = true → useCompact ft (seqOpen m o st).level start (l.filter (fun x => !x.isNil)) e m fc fm = true := by
    intro hm hq
    cases e with
    | none => exact absurd rfl (hne hm)
    | some e' =>
      have := hb hm hq e' rfl
      unfold bareTuple at this
      simp only [Bool.and_eq_true, List.all_eq_true, Bool.or_eq_true] at this
      unfold useCompact
      rw [if_neg, if_neg, if_pos hm]
      · simp [this.2]
      · intro h
        simp only [List.any_eq_true, List.mem_filter] at h
        obtain ⟨x, ⟨hx, hx'⟩, h⟩ := h
        rcases this.1 x hx with h' | h'
        · rw [h'] at hx'; cases hx'
        · rw [h'.1, h'.2] at h; cases h
  generalize l.filter (fun x => !x.isNil) = args at hw' hs' hb'
  refine S.pre (b := seqOpen m o st) ?_ (S.post (b := if useCompact ft (seqOpen m o st).level start args e m fc fm then seqCompact pr m args (seqOpen m o st) else seqMulti pr m args e (seqOpen m o st)) ?_ ?_)
  · unfold seqOpen
    dsimp only
    refine S.pre (b := if m = Mode.seq then st else Print.emit o st) (ite' (S.refl _) (S.em _ _ ho.1)) (S.same rfl rfl rfl)
  · by_cases hc : useCompact ft (seqOpen m o st).level start args e m fc fm = true
    · rw [if_pos hc]
      have he : endB e = [] := by
        unfold useCompact at hc
        cases e with
        | none => rfl
        | some e =>
          show e.comments.before = []
          dsimp only at hc
          by_cases ha : args.any (fun x => !x.comments.before.isEmpty || (!x.comments.suffix.isEmpty && m != .def_)) = true
          · rw [if_pos ha] at hc; cases hc
          · rw [if_neg ha] at hc
            by_cases hb : (!e.comments.before.isEmpty) = true
            · rw [if_pos hb] at hc; cases hc
            · simpa using hb
      rw [he, List.append_nil]
      unfold seqCompact
      dsimp only
      exact S.post (s_compact S G _ _ _ hw' hs') (ite' (S.em _ _) (S.refl _))
    · rw [if_neg hc]
      unfold seqMulti
      dsimp only
      generalize (if m = Mode.def_ then defIndentation else listIndentation) = ind
      refine S.pre (b := { seqOpen m o st with margin := (seqOpen m o st).margin + ind }) (S.same rfl rfl rfl) ?_
      have h1 := s_multi S G m args true { seqOpen m o st with margin := (seqOpen m o st).margin + ind } (fun _ hq => by
        by_cases hm : m = .seq
        · exact absurd (hb' hm hq) hc
        · show (seqOpen m o st).out.head? ≠ some 32
          unfold seqOpen
          rw [if_neg hm]
          show (o.reverse ++ st.out).head? ≠ some 32
          revert ho
          cases o.reverse with
          | nil => exact fun h => absurd rfl h.2.1
          | cons x r => exact fun h => h.2.2) hw' hs'
      have h2 : R (shownL args ++ endB e) { seqOpen m o st with margin := (seqOpen m o st).margin + ind }
          (seqEnd e (multiElems pr m true args { seqOpen m o st with margin := (seqOpen m o st).margin + ind })) := by
        refine S.trans h1 ?_
        cases e with
        | none => exact S.refl _
        | some e => exact S.endC _ _
      refine S.post h2 ?_
      generalize seqEnd e (multiElems pr m true args { seqOpen m o st with margin := (seqOpen m o st).margin + ind }) = st2
      exact S.pre (b := { st2 with margin := st2.margin - ind }) (S.same rfl rfl rfl) (ite' (S.refl _) (S.newline _))
  · generalize (if useCompact ft (seqOpen m o st).level start args e m fc fm then seqCompact pr m args (seqOpen m o st) else seqMulti pr m args e (seqOpen m o st)) = st2
    unfold seqClose
    dsimp only
    exact S.pre (b := { st2 with depth := st2.depth - 1 }) (S.same rfl rfl rfl) (ite' (S.refl _) (S.em _ _ hcl))

theorem s_clauses (m : Bool) : ∀ (l : List Expr) (st : St), fitL T q l = true → sizeL l + 2 ≤ n → R (shownL l) st (clauseElems pr m l st) := by
  intro l
  induction l with
  | nil => intro st _ _; exact S.refl st
  | cons x l ih =>
    intro st hw hs
    unfold fitL at hw
    simp only [Bool.and_eq_true] at hw
    unfold sizeL at hs
    unfold clauseElems
    exact S.trans (S.pre (ite' (S.breakline _) (S.em _ _)) (G x 0 _ hw.1 (by omega))) (ih _ hw.2 (by omega))

theorem s_listFor (cu : Bool) (b : Expr) (cl : List Expr) (fm : Bool) (e : EndN) (st : St) (hw : fit T q b = true) (hs : size b + 2 ≤ n) (hw' : fitL T q cl = true) (hs' : sizeL cl + 2 ≤ n) :
    R (shown b ++ (shownL cl ++ e.comments.before)) st (listFor pr cu b cl fm e st) := by
  unfold listFor
  dsimp only
  refine S.pre (b := { st with depth := st.depth + 1 }) (S.same rfl rfl rfl) (S.pre (S.em (if cu then b!"{" else b!"[") _ (by cases cu <;> decide)) ?_)
  generalize (Print.emit (if cu then b!"{" else b!"[") { st with depth := st.depth + 1 }) = st0
  have key : ∀ st2 : St, R [] st2 { Print.emit (if cu then b!"}" else b!"]") st2 with depth := (Print.emit (if cu then b!"}" else b!"]") st2).depth - 1 } :=
    fun st2 => S.pre (S.em (if cu then b!"}" else b!"]") st2 (by cases cu <;> decide)) (S.same rfl rfl rfl)
  refine S.post ?_ (key _)
  cases hm : (fm || !e.comments.before.isEmpty) with
  | false =>
    have he : e.comments.before = [] := by
      simp only [Bool.or_eq_false_iff, Bool.not_eq_false'] at hm
      simpa using hm.2
    simp only [Bool.false_eq_true, if_false]
    rw [he, List.append_nil]
    exact S.trans (G b 0 _ hw hs) (s_clauses S G _ _ _ hw' hs')
  | true =>
    simp only [if_true]
    refine S.pre (b := { st0 with margin := st0.margin + listIndentation }) (S.same rfl rfl rfl) (S.pre (S.newline _) ?_)
    refine S.post (S.trans (G b 0 _ hw hs) (S.trans (s_clauses S G true _ _ hw' hs') (S.endC _ _))) ?_
    generalize (endComments e.comments.before (clauseElems pr true cl (pr b 0 (Print.newline { st0 with margin := st0.margin + listIndentation })))) = st2
    exact S.pre (b := { st2 with margin := st2.margin - listIndentation }) (S.same rfl rfl rfl) (S.newline _)

theorem s_lambda : ∀ (l : List Expr) (b : Bool) (st : St), fitL T q l = true → sizeL l + 2 ≤ n → R (shownL l) st (lambdaParams pr b l st) := by
  intro l
  induction l with
  | nil => intro b st _ _; exact S.refl st
  | cons x l ih =>
    intro b st hw hs
    unfold fitL at hw
    simp only [Bool.and_eq_true] at hw
    unfold sizeL at hs
    unfold lambdaParams
    dsimp only
    exact S.trans (S.pre (ite' (S.refl _) (S.em _ _)) (S.pre (S.em _ _) (G x 0 _ hw.1 (by omega)))) (ih _ _ hw.2 (by omega))

theorem s_opt (x : Expr) (o : Nat) (st : St) (hw : (x.isNil || fit T q x) = true) (hs : size x + 2 ≤ n) : R (shown x) st (if x.isNil then st else pr x o st) := by
  by_cases h : x.isNil = true
  · rw [if_pos h, isNil_eq h]; exact S.refl st
  · rw [if_neg h]
    refine G x o st ?_ hs
    simpa [h] using hw

theorem s_if (f : Nat) : ∀ (b ne : Bool) (co : Expr) (tr : List Expr) (ep : EndN) (fa : List Expr) (st : St), fit T q co = true → fitO T q tr = true → tr.isEmpty = false →
    fitO T q fa = true → size co + sizeL tr + sizeL fa + 2 ≤ n → size co + sizeL tr + sizeL fa ≤ f →
    R (shown co ++ (shownS tr ++ shownElse ep fa)) st (ifChain ft pr f b ne co tr ep fa st) := by
  induction f with
  | zero => intro b ne co tr ep fa st _ _ _ _ _ h; have := size_pos co; omega
  | succ f ih =>
    intro b ne co tr ep fa st hco htr hte hfa hs hf
    unfold ifChain
    dsimp only
    rw [hte]
    rw [if_neg (c := false = true) (by simp)]
    have h1 : R (shown co ++ shownS tr) st (nestedStatements ft pr tr (Print.emit b!":" (pr co 0 (Print.emit b!"if " (if b then newlineIfNeeded st else Print.emit b!"el" (if ne then Print.newline (newlineIfNeeded st) else newlineIfNeeded st)))))) := by
      refine S.pre (S.nif st) (S.pre (b := if b then newlineIfNeeded st else Print.emit b!"el" (if ne then Print.newline (newlineIfNeeded st) else newlineIfNeeded st)) ?_ ?_)
      · exact ite' (S.refl _) (S.pre (b := if ne then Print.newline (newlineIfNeeded st) else newlineIfNeeded st) (ite' (S.newline _) (S.refl _)) (S.em _ _))
      · exact S.pre (S.em _ _) (S.trans (S.post (G co 0 _ hco (by omega)) (S.em _ _)) (s_nested S G tr _ htr (by omega)))
    revert h1
    generalize (nestedStatements ft pr tr (Print.emit b!":" (pr co 0 (Print.emit b!"if " (if b then newlineIfNeeded st else Print.emit b!"el" (if ne then Print.newline (newlineIfNeeded st) else newlineIfNeeded st)))))) = st1
    intro h1
    rw [← List.append_assoc]
    refine S.trans h1 ?_
    generalize (decide (ep.pos.line > (endPosLast tr).line + 1)) = ne'
    have h3 : fa.isEmpty = false → R (ep.comments.suffix ++ shownS fa) st1 (if fa.isEmpty then st1
      else nestedStatements ft pr fa { Print.emit b!"else:" (if ne' then Print.newline (newlineIfNeeded st1) else newlineIfNeeded st1) with
          comment := (Print.emit b!"else:" (if ne' then Print.newline (newlineIfNeeded st1) else newlineIfNeeded st1)).comment ++ ep.comments.suffix }) := by
      intro he
      rw [he, if_neg (c := false = true) (by simp)]
      refine S.pre (S.nif st1) (S.pre (b := if ne' then Print.newline (newlineIfNeeded st1) else newlineIfNeeded st1) (ite' (S.newline _) (S.refl _)) (S.pre (S.em b!"else:" _) ?_))
      exact S.trans (S.pend ep.comments.suffix _) (s_nested S G fa _ hfa (by omega))
    split
    · rename_i c2 p2 co2 tr2 ep2 fa2
      have hfa' : fit T q co2 = true ∧ fitO T q tr2 = true ∧ tr2.isEmpty = false ∧ fitO T q fa2 = true := by
        simp only [fitO, fit, Expr.isNil, Bool.false_or, Bool.and_true, Bool.and_eq_true, Bool.not_eq_true'] at hfa
        exact ⟨hfa.1.1.1, hfa.1.1.2, hfa.1.2, hfa.2⟩
      have hsz : sizeL [Expr.ifS c2 p2 co2 tr2 ep2 fa2] = 1 + size co2 + sizeL tr2 + sizeL fa2 := by simp only [sizeL, size]; omega
      by_cases hc : (ep.comments.suffix.isEmpty && c2.before.isEmpty) = true
      · rw [if_pos hc]
        have : shownElse ep [Expr.ifS c2 p2 co2 tr2 ep2 fa2] = shown co2 ++ (shownS tr2 ++ shownElse ep2 fa2) := by
          conv => lhs; unfold shownElse
          rw [if_pos hc]
        rw [this]
        exact ih _ _ _ _ _ _ _ hfa'.1 hfa'.2.1 hfa'.2.2.1 hfa'.2.2.2 (by omega) (by omega)
      · rw [if_neg hc]
        have : shownElse ep [Expr.ifS c2 p2 co2 tr2 ep2 fa2] = ep.comments.suffix ++ shownS [Expr.ifS c2 p2 co2 tr2 ep2 fa2] := by
          conv => lhs; unfold shownElse
          rw [if_neg hc]
          simp only [shownS, shown, Expr.comments, List.append_nil]
        rw [this]
        exact h3 rfl
    · rename_i hne
      have : shownElse ep fa = if fa.isEmpty then [] else ep.comments.suffix ++ shownS fa := by
        cases fa with
        | nil => rfl
        | cons x l =>
          cases l with
          | nil =>
            cases x
            case ifS c2 p2 co2 tr2 ep2 fa2 => exact absurd rfl (hne c2 p2 co2 tr2 ep2 fa2)
            all_goals rfl
          | cons y l => cases x <;> rfl
      rw [this]
      by_cases he : fa.isEmpty = true
      · rw [if_pos he, if_pos he]; exact S.refl _
      · have he' : fa.isEmpty = false := by simpa using he
        have := h3 he'
        rw [if_neg he]
        exact this

omit G in
theorem s_paren (p o : Nat) (body : St → St) (l : List Comment) (st : St) (h : ∀ st, R l st (body st)) : R l st (withParen p o body st) := by
  unfold withParen
  refine ite' ?_ (h st)
  refine S.pre (S.em b!"(" st) (S.pre (b := { Print.emit b!"(" st with depth := st.depth + 1 }) (S.same rfl rfl rfl) (S.post (h _) ?_))
  generalize (body { Print.emit b!"(" st with depth := st.depth + 1 }) = st2
  exact S.pre (b := { st2 with depth := st2.depth - 1 }) (S.same rfl rfl rfl) (S.em _ _)

end

theorem load_elems {T : Bytes → Bool} {q : Bool} (hT : ∀ s : Bytes, 10 ∉ s → T s = true) : ∀ fs ts : List IdentN, fitLoad T fs ts = true → fitO T q (loadArgs fs ts) = true ∧ shownL (loadArgs fs ts) = shownLoad fs ts ∧
    (∀ x ∈ loadArgs fs ts, size x + 2 ≤ 3 + fs.length + ts.length) := by
  intro fs
  induction fs with
  | nil => intro ts _; exact ⟨rfl, rfl, (fun x hx => by cases hx)⟩
  | cons f fs ih =>
    intro ts hl
    cases ts with
    | nil => exact ⟨rfl, rfl, (fun x hx => by cases hx)⟩
    | cons t ts =>
      unfold fitLoad at hl
      rw [Bool.and_eq_true, Bool.and_eq_true] at hl
      obtain ⟨h1, h2, h3⟩ := ih ts hl.2
      have h4 : ∀ c p p', fitString T { comments := c, start := p, value := f.name, endPos := p' } = true := fun _ _ _ => hl.1.1
      have h5 : T b!"=" = true := hT _ (by decide)
      unfold loadArgs
      refine ⟨?_, ?_, ?_⟩
      · by_cases h : f.name = t.name
        · rw [if_pos h]
          simp only [fitO, fit, identString, h4, h1, Bool.or_true, Bool.and_self]
        · rw [if_neg h]
          have h6 : T t.name = true := by
            have := hl.1.2
            rwa [beq_false_of_ne h, Bool.false_or] at this
          simp only [fitO, fit, identString, h4, h1, h5, h6, Bool.or_true, Bool.and_self]
      · unfold shownLoad
        by_cases h : f.name = t.name
        · rw [if_pos h, if_pos h]
          show around _ [] ++ shownL (loadArgs fs ts) = _
          rw [h2]
          rfl
        · rw [if_neg h, if_neg h]
          show around _ (around _ [] ++ around _ []) ++ shownL (loadArgs fs ts) = _
          rw [h2]
          simp only [around, identString, List.nil_append, List.append_nil]
      · intro x hx
        rcases List.mem_cons.1 hx with rfl | hx
        · by_cases h : f.name = t.name
          · rw [if_pos h]; simp only [size, List.length_cons]; omega
          · rw [if_neg h]; simp only [size, List.length_cons]; omega
        · have := h3 x hx
          simp only [List.length_cons]
          omega

section
variable {T : Bytes → Bool} {q : Bool} {R : List Comment → St → St → Prop} (S : Steps T q R)
include S
variable {ft : FileType} {pr : Pr} {n : Nat} (G : Good T q R n pr)
include G

/-- what is shown inside a node -/
theorem s_body (v : Expr) (o : Nat) (st : St) (hw : fit T q v = true) (hs : size v + 2 ≤ n + 1) :
    ∃ l, shown v = around v.comments l ∧ R l st (exprBody ft pr n v o st) := by
  have sz : ∀ {x : Expr} {l : List Expr} {k : Nat}, sizeL l + k ≤ n → x ∈ l → size x + k ≤ n := fun h hx => by have := mem_size hx; omega
  cases v
  case nil => cases hw
  case file => cases hw
  case commentBlock => exact ⟨_, rfl, S.refl _⟩
  case literal => exact ⟨_, rfl, S.emit _ _ hw⟩
  case ident => exact ⟨_, rfl, S.emit _ _ hw⟩
  case branch => exact ⟨_, rfl, S.emit _ _ hw⟩
  case string m =>
    refine ⟨_, rfl, ?_⟩
    have hw' : fitString T m = true := hw
    unfold fitString at hw'
    unfold exprBody
    dsimp only
    cases hp : Quote.printString m.token m.value m.triple with
    | none => rw [hp] at hw'; cases hw'
    | some s => rw [hp] at hw'; exact S.emit _ _ hw'
  case typedIdent c i t =>
    have h1 : 1 + size t + 2 ≤ n + 1 := hs
    have hw1 : (T i.name && fit T q t) = true := hw
    simp only [Bool.and_eq_true] at hw1
    exact ⟨_, rfl, S.trans (S.post (G (.ident i) 0 st hw1.1 (by have := size_pos t; simp only [size]; omega)) (S.em _ _)) (G t 0 _ hw1.2 (by omega))⟩
  case call c x ls l e fc fm =>
    have h1 : 1 + size x + sizeL l + 2 ≤ n + 1 := hs
    have hw1 : (fit T q x && fitO T q l) = true := hw
    simp only [Bool.and_eq_true] at hw1
    refine ⟨_, rfl, ?_⟩
    unfold exprBody
    dsimp only
    refine s_paren S _ _ _ _ _ (fun st => ?_)
    exact S.trans (G x _ _ hw1.1 (by omega)) (s_seq S G _ _ _ _ (some e) _ _ _ _ (by decide) (by decide) (fun h => by cases h) (fun h => by cases h) hw1.2 (fun y hy => sz (by omega) hy))
  case dot c x dp np name =>
    have h1 : 1 + size x + 2 ≤ n + 1 := hs
    have hw1 : (fit T q x && T name) = true := hw
    simp only [Bool.and_eq_true] at hw1
    refine ⟨_, rfl, ?_⟩
    unfold exprBody
    dsimp only
    refine s_paren S _ _ _ _ _ (fun st => ?_)
    have h2 := G x precSuffix st hw1.1 (by omega)
    have ht : T (b!"." ++ name) = true := S.cons _ _ (by decide) hw1.2
    by_cases hd : differentLines np x.endPos = true
    · rw [if_pos hd]
      refine S.post h2 ?_
      generalize pr x precSuffix st = st1
      exact S.pre (b := { st1 with margin := st1.margin + listIndentation }) (S.same rfl rfl rfl) (S.pre (S.breakline _) (S.pre (S.emit (b!"." ++ name) _ ht) (S.same rfl rfl rfl)))
    · rw [if_neg hd]
      exact S.post h2 (S.emit _ _ ht)
  case compr c cu p b cl fm e =>
    have h1 : 1 + size b + sizeL cl + 2 ≤ n + 1 := hs
    have hw1 : (fit T q b && fitL T q cl) = true := hw
    simp only [Bool.and_eq_true] at hw1
    refine ⟨_, rfl, ?_⟩
    unfold exprBody
    dsimp only
    exact s_listFor S G _ _ _ _ _ _ hw1.1 (by omega) hw1.2 (by omega)
  case forClause c p v i x =>
    have h1 : 1 + size v + size x + 2 ≤ n + 1 := hs
    have hw1 : (fit T q v && fit T q x) = true := hw
    simp only [Bool.and_eq_true] at hw1
    exact ⟨_, rfl, S.pre (S.em _ _) (S.trans (S.post (G v _ _ hw1.1 (by omega)) (S.em _ _)) (G x _ _ hw1.2 (by omega)))⟩
  case ifClause c p x =>
    have h1 : 1 + size x + 2 ≤ n + 1 := hs
    exact ⟨_, rfl, S.pre (S.em _ _) (G x _ _ hw (by omega))⟩
  case keyValue c k p v =>
    have h1 : 1 + size k + size v + 2 ≤ n + 1 := hs
    have hw1 : (fit T q k && fit T q v) = true := hw
    simp only [Bool.and_eq_true] at hw1
    exact ⟨_, rfl, S.trans (S.post (G k _ _ hw1.1 (by omega)) (S.em _ _)) (G v _ _ hw1.2 (by omega))⟩
  case dict c s l e fm =>
    have h1 : 1 + sizeL l + 2 ≤ n + 1 := hs
    refine ⟨_, rfl, ?_⟩
    unfold exprBody
    dsimp only
    exact s_seq S G _ _ _ _ (some e) _ _ _ _ (by decide) (by decide) (fun h => by cases h) (fun h => by cases h) hw (fun y hy => sz (by omega) hy)
  case list c s l e fm =>
    have h1 : 1 + sizeL l + 2 ≤ n + 1 := hs
    refine ⟨_, rfl, ?_⟩
    unfold exprBody
    dsimp only
    exact s_seq S G _ _ _ _ (some e) _ _ _ _ (by decide) (by decide) (fun h => by cases h) (fun h => by cases h) hw (fun y hy => sz (by omega) hy)
  case set c s l e fm =>
    have h1 : 1 + sizeL l + 2 ≤ n + 1 := hs
    refine ⟨_, rfl, ?_⟩
    unfold exprBody
    dsimp only
    exact s_seq S G _ _ _ _ (some e) _ _ _ _ (by decide) (by decide) (fun h => by cases h) (fun h => by cases h) hw (fun y hy => sz (by omega) hy)
  case tuple c nb s l e fc fm =>
    have h1 : 1 + sizeL l + 2 ≤ n + 1 := hs
    have hw1 : (fitO T q l && (!q || !nb || bareTuple l e)) = true := hw
    simp only [Bool.and_eq_true] at hw1
    refine ⟨_, rfl, ?_⟩
    unfold exprBody
    dsimp only
    refine s_seq S G _ _ _ _ (some e) _ _ _ _ (by decide) (by decide) (fun hm hq e' he => ?_) (fun _ h => by cases h) hw1.1 (fun y hy => sz (by omega) hy)
    injection he with he
    subst he
    cases nb with
    | false => cases hm
    | true => simpa [hq] using hw1.2
  case unary c p op x =>
    have h1 : 1 + size x + 2 ≤ n + 1 := hs
    have hw1 : (T op && (x.isNil || fit T q x)) = true := hw
    rw [Bool.and_eq_true] at hw1
    refine ⟨_, rfl, ?_⟩
    unfold exprBody
    dsimp only
    refine s_paren S _ _ _ _ _ (fun st => ?_)
    exact S.pre (b := if op = b!"not" then Print.emit b!"not " st else Print.emit op st) (ite' (S.em _ _) (S.emit _ _ hw1.1)) (s_opt S G x _ _ hw1.2 (by omega))
  case binary c x p op lb y =>
    have h1 : 1 + size x + size y + 2 ≤ n + 1 := hs
    have hw1 : (T op && (fit T q x && fit T q y)) = true := hw
    simp only [Bool.and_eq_true] at hw1
    obtain ⟨hop, hw1⟩ := hw1
    have ht : T (b!" " ++ op) = true := S.cons _ _ (by decide) hop
    refine ⟨_, rfl, ?_⟩
    unfold exprBody
    dsimp only
    refine s_paren S _ _ _ _ _ (fun st => ?_)
    have key : ∀ a b : St, R [] st a → (∀ a, R [] a (if lb then Print.breakline a else Print.emit b!" " a)) →
        R (shown x ++ shown y) st { pr y (opPrec op + 1) (if lb then Print.breakline (Print.emit (b!" " ++ op) (pr x (opPrec op) a)) else Print.emit b!" " (Print.emit (b!" " ++ op) (pr x (opPrec op) a))) with margin := st.margin } := by
      intro a _ ha hb
      refine S.pre ha (S.trans (S.post (G x (opPrec op) a hw1.1 (by omega)) (S.pre (S.emit (b!" " ++ op) _ ht) (hb _))) (S.post (G y (opPrec op + 1) _ hw1.2 (by omega)) (S.same rfl rfl rfl)))
    exact key _ st (ite' (S.same rfl rfl rfl) (S.refl _)) (fun a => ite' (S.breakline _) (S.em _ _))
  case assign c x p op lb y =>
    have h1 : 1 + size x + size y + 2 ≤ n + 1 := hs
    have hw1 : (T op && (fit T q x && fit T q y)) = true := hw
    simp only [Bool.and_eq_true] at hw1
    obtain ⟨hop, hw1⟩ := hw1
    have ht : T (b!" " ++ op) = true := S.cons _ _ (by decide) hop
    refine ⟨_, rfl, ?_⟩
    unfold exprBody
    dsimp only
    refine s_paren S _ _ _ _ _ (fun st => ?_)
    have key : ∀ a b : St, R [] st a → (∀ a, R [] a (if lb then Print.breakline a else Print.emit b!" " a)) →
        R (shown x ++ shown y) st { pr y (precAssign + 1) (if lb then Print.breakline (Print.emit (b!" " ++ op) (pr x precAssign a)) else Print.emit b!" " (Print.emit (b!" " ++ op) (pr x precAssign a))) with margin := st.margin } := by
      intro a _ ha hb
      refine S.pre ha (S.trans (S.post (G x precAssign a hw1.1 (by omega)) (S.pre (S.emit (b!" " ++ op) _ ht) (hb _))) (S.post (G y (precAssign + 1) _ hw1.2 (by omega)) (S.same rfl rfl rfl)))
    exact key _ st (ite' (S.same rfl rfl rfl) (S.refl _)) (fun a => ite' (S.breakline _) (S.em _ _))
  case paren c s x e fm =>
    have h1 : 1 + size x + 2 ≤ n + 1 := hs
    have hw1 : (x.isNil || fit T q x) = true := hw
    refine ⟨_, rfl, ?_⟩
    have := s_seq S G (ft := ft) b!"(" b!")" s [x] (some e) .paren false fm st (by decide) (by decide) (fun h => by cases h) (fun h => by cases h) (by simp only [fitO, hw1, Bool.and_true]) (fun y hy => by rw [List.mem_singleton.1 hy]; omega)
    simp only [shownL, List.append_nil] at this
    exact this
  case slice c x p fr p1 to p2 stp e =>
    have h1 : 1 + size x + size fr + size to + size stp + 2 ≤ n + 1 := hs
    have hw1 : (fit T q x && (fr.isNil || fit T q fr) && (to.isNil || fit T q to) && (stp.isNil || fit T q stp)) = true := hw
    rw [Bool.and_eq_true, Bool.and_eq_true, Bool.and_eq_true] at hw1
    refine ⟨_, rfl, ?_⟩
    unfold exprBody
    dsimp only
    refine s_paren S _ _ _ _ _ (fun st => ?_)
    refine S.post (S.trans (S.post (G x precSuffix st hw1.1.1.1 (by omega)) (S.em b!"[" _)) (S.trans (s_opt S G fr 0 _ hw1.1.1.2 (by omega)) (S.pre (S.em b!":" _) (S.trans (s_opt S G to 0 _ hw1.1.2 (by omega)) ?_)))) (S.em _ _)
    by_cases hp : p2.byte ≠ 0
    · rw [if_pos hp, if_pos hp]
      exact S.pre (S.em _ _) (s_opt S G stp 0 _ hw1.2 (by omega))
    · rw [if_neg hp, if_neg hp]
      exact S.refl _
  case index c x p y e =>
    have h1 : 1 + size x + size y + 2 ≤ n + 1 := hs
    have hw1 : (fit T q x && fit T q y) = true := hw
    simp only [Bool.and_eq_true] at hw1
    refine ⟨_, rfl, ?_⟩
    unfold exprBody
    dsimp only
    exact s_paren S _ _ _ _ _ (fun st => S.post (S.trans (S.post (G x _ _ hw1.1 (by omega)) (S.em _ _)) (G y _ _ hw1.2 (by omega))) (S.em _ _))
  case lambda c p ps b =>
    have h1 : 1 + sizeL ps + sizeL b + 2 ≤ n + 1 := hs
    have hw1 : (fitL T q ps && fitH T q b) = true := hw
    simp only [Bool.and_eq_true] at hw1
    refine ⟨_, rfl, ?_⟩
    unfold exprBody
    dsimp only
    refine s_paren S _ _ _ _ _ (fun st => ?_)
    have h2 := S.pre (S.em b!"lambda" st) (S.post (s_lambda S G ps true _ hw1.1 (by omega)) (S.em b!": " _))
    cases b with
    | nil => cases hw1.2
    | cons x b =>
      have h3 : sizeL (x :: b) = size x + sizeL b := rfl
      exact S.trans h2 (G x 0 _ hw1.2 (by omega))
  case cond c t i te el e =>
    have h1 : 1 + size t + size te + size e + 2 ≤ n + 1 := hs
    have hw1 : (fit T q t && fit T q te && fit T q e) = true := hw
    rw [Bool.and_eq_true, Bool.and_eq_true] at hw1
    refine ⟨_, rfl, ?_⟩
    unfold exprBody
    dsimp only
    exact s_paren S _ _ _ _ _ (fun st => S.trans (S.post (G t _ _ hw1.1.1 (by omega)) (S.em _ _)) (S.trans (S.post (G te _ _ hw1.1.2 (by omega)) (S.em _ _)) (G e _ _ hw1.2 (by omega))))
  case load c p m fs ts r fc =>
    have h1 : 2 + fs.length + ts.length + 2 ≤ n + 1 := hs
    have hw1 : (fitString T m && fitLoad T fs ts) = true := hw
    rw [Bool.and_eq_true] at hw1
    obtain ⟨l1, l2, l3⟩ := load_elems (q := q) S.plain fs ts hw1.2
    refine ⟨_, rfl, ?_⟩
    unfold exprBody
    dsimp only
    refine s_paren S _ _ _ _ _ (fun st => S.pre (S.em b!"load" st) ?_)
    have := s_seq S G (ft := ft) b!"(" b!")" p (.string m :: loadArgs fs ts) (some r) .load fc false (Print.emit b!"load" st) (by decide) (by decide) (fun h => by cases h) (fun h => by cases h) (by simp only [fitO, fit, hw1.1, l1, Bool.or_true, Bool.and_self]) (fun y hy => by
      rcases List.mem_cons.1 hy with rfl | hy
      · simp only [size]; omega
      · have := l3 y hy; omega)
    have e1 : shownL (.string m :: loadArgs fs ts) = around m.comments [] ++ shownLoad fs ts := by rw [← l2]; rfl
    rw [e1, List.append_assoc] at this
    exact this
  case defS c p name ps body cp fc fm t =>
    have h1 : 1 + sizeL ps + sizeL body + size t + 2 ≤ n + 1 := hs
    have hw1 : (T name && (fitO T q ps && fitO T q body && (t.isNil || fit T q t))) = true := hw
    rw [Bool.and_eq_true, Bool.and_eq_true, Bool.and_eq_true] at hw1
    obtain ⟨hname, hw1⟩ := hw1
    refine ⟨_, rfl, ?_⟩
    unfold exprBody
    dsimp only
    have h2 := s_seq S G (ft := ft) b!"(" b!")" p ps none .def_ fc fm (Print.emit name (Print.emit b!"def " st)) (by decide) (by decide) (fun h => by cases h) (fun h => by cases h) hw1.1.1 (fun y hy => sz (by omega) hy)
    have e2 : shownL ps ++ endB none = shownL ps := List.append_nil _
    rw [e2] at h2
    refine S.pre (S.pre (S.em b!"def " st) (S.emit name _ hname)) (S.trans h2 (S.trans (S.post ?_ (S.em b!":" _)) (s_nested S G body _ hw1.1.2 (by omega))))
    by_cases hn : t.isNil = true
    · rw [if_pos hn, isNil_eq hn]
      exact S.refl _
    · rw [if_neg hn]
      exact S.pre (S.em _ _) (G t 0 _ (by simpa [hn] using hw1.2) (by omega))
  case returnS c p x =>
    have h1 : 1 + size x + 2 ≤ n + 1 := hs
    have hw1 : (x.isNil || fit T q x) = true := hw
    refine ⟨_, rfl, ?_⟩
    unfold exprBody
    dsimp only
    by_cases hn : x.isNil = true
    · rw [if_pos hn, isNil_eq hn]
      exact S.em _ _
    · rw [if_neg hn]
      exact S.pre (S.em _ _) (S.pre (S.em _ _) (G x 0 _ (by simpa [hn] using hw1) (by omega)))
  case forS c p v x body =>
    have h1 : 1 + size v + size x + sizeL body + 2 ≤ n + 1 := hs
    have hw1 : (fit T q v && fit T q x && fitO T q body) = true := hw
    rw [Bool.and_eq_true, Bool.and_eq_true] at hw1
    exact ⟨_, rfl, S.pre (S.em _ _) (S.trans (S.post (G v _ _ hw1.1.1 (by omega)) (S.em _ _)) (S.trans (S.post (G x _ _ hw1.1.2 (by omega)) (S.em _ _)) (s_nested S G body _ hw1.2 (by omega))))⟩
  case ifS c p co tr ep fa =>
    have h1 : 1 + size co + sizeL tr + sizeL fa + 2 ≤ n + 1 := hs
    have hw1 : (fit T q co && fitO T q tr && !tr.isEmpty && fitO T q fa) = true := hw
    rw [Bool.and_eq_true, Bool.and_eq_true, Bool.and_eq_true] at hw1
    refine ⟨_, rfl, ?_⟩
    unfold exprBody
    dsimp only
    exact s_if S G n true false co tr ep fa st hw1.1.1.1 hw1.1.1.2 (by simpa using hw1.1.2) hw1.2 (by omega) (by omega)

end

/-- printing a tree without holes -/
theorem steps_expr {T : Bytes → Bool} {q : Bool} {R : List Comment → St → St → Prop} (S : Steps T q R) (ft : FileType) : ∀ n, Good T q R n (expr ft n) := by
  intro n
  induction n with
  | zero => intro e o st _ h; omega
  | succ n ih =>
    intro e o st hw hs
    obtain ⟨l, h1, h2⟩ := s_body S ih (ft := ft) e o (beforeComments e.comments.before (newlineIfNeeded st)) hw hs
    rw [h1]
    exact S.pre (S.nif st) (S.trans (S.before _ _) (S.trans h2 (S.pend _ _)))

/-- printing a file -/
theorem steps_file {T : Bytes → Bool} {q : Bool} {R : List Comment → St → St → Prop} (S : Steps T q R) (f : File) (hw : fitO T q f.stmts = true) (st : St) :
    R (f.comments.before ++ (shownS f.stmts ++ f.comments.after)) st (file f st) := by
  unfold file
  dsimp only
  exact S.trans (S.fileC _ _) (S.trans (s_statements S (steps_expr S f.type (budget f.stmts)) _ _ hw (by unfold budget; omega)) (S.post (S.fileC _ _) (S.nif _)))

/-! ## Without conditions on the texts -/

theorem fitString_any (n : StringN) : fitString (fun _ => true) n = (Quote.printString n.token n.value n.triple).isSome := by
  unfold fitString
  cases Quote.printString n.token n.value n.triple <;> rfl

theorem fitLoad_any : ∀ fs ts : List IdentN, fitLoad (fun _ => true) fs ts = true := by
  intro fs
  induction fs with
  | nil => intro ts; rfl
  | cons f fs ih =>
    intro ts
    cases ts with
    | nil => rfl
    | cons t ts =>
      unfold fitLoad
      rw [ih ts, fitString_any, Bool.or_true]
      unfold Quote.printString
      have : (Quote.unquote []).err = true := rfl
      dsimp only
      rw [if_neg (by rw [this]; simp)]
      rfl

theorem fit_any (e : Expr) : fit (fun _ => true) false e = whole e := by
  refine Expr.rec (motive_1 := fun e => fit (fun _ => true) false e = whole e)
    (motive_2 := fun l => fitL (fun _ => true) false l = wholeL l ∧ fitO (fun _ => true) false l = wholeO l ∧ fitH (fun _ => true) false l = wholeH l)
    ?_ ?_ ?_ ?_ ?_ ?_ ?_ ?_ ?_ ?_ ?_ ?_ ?_ ?_ ?_ ?_ ?_ ?_ ?_ ?_ ?_ ?_ ?_ ?_ ?_ ?_ ?_ ?_ ?_ ?_ ?_ ?_ ?_ e
  all_goals intros
  all_goals simp_all [fit, fitL, fitO, fitH, whole, wholeL, wholeO, wholeH, fitString_any, fitLoad_any]

theorem fitO_any : ∀ l : List Expr, fitO (fun _ => true) false l = wholeO l := by
  intro l
  induction l with
  | nil => rfl
  | cons x l ih => unfold fitO wholeO; rw [ih, fit_any]

end Verif.Printed
