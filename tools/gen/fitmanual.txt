theorem fr11 (hp : ∀ s : Bytes, 10 ∉ s → T s = true) : QStep T 10 := q2 rfl fun t1 t2 v1 v2 v _ h1 h2 h => by
  cases h
  obtain ⟨⟨t, rfl, hk⟩, _, _⟩ := h2
  refine ⟨fun he => ⟨rfl, fun u hu => ?_⟩, h1.2⟩
  rcases List.mem_append.1 hu with hu | hu
  · exact (h1.1 he).2 u hu
  · rw [List.mem_singleton.1 hu, hk]

theorem fr64 (hp : ∀ s : Bytes, 10 ∉ s → T s = true) : QStep T 63 := q3 rfl fun t1 t2 t3 v1 v2 v3 v _ h1 h2 h3 h => by
  cases h
  show (v1.loadargs ++ v3.loadargs).all (fitPair T) = true
  rw [List.all_append, Bool.and_eq_true]
  exact ⟨h1, h3⟩

theorem fr138 (hp : ∀ s : Bytes, 10 ∉ s → T s = true) : QStep T 137 := q1 rfl fun t1 v1 v _ h1 h => by
  cases h
  obtain ⟨_, _, h1⟩ := h1
  exact ⟨_, rfl, (h1 rfl).1, (h1 rfl).2⟩

theorem fr140 (hp : ∀ s : Bytes, 10 ∉ s → T s = true) : QStep T 139 := q3 rfl fun t1 t2 t3 v1 v2 v3 v _ h1 h2 h3 h => by
  cases h
  have e1 := QTok.plain h1 (by decide) (by decide) (by decide)
  have e3 := QTok.plain h3 (by decide) (by decide) (by decide)
  refine ⟨hp _ (show 10 ∉ v1.tok ++ [46] ++ v3.tok from ?_), rfl⟩
  simp [e1, e3]

theorem fr141 (hp : ∀ s : Bytes, 10 ∉ s → T s = true) : QStep T 140 := q2 rfl fun t1 t2 v1 v2 v _ h1 h2 h => by
  cases h
  have e1 := QTok.plain h1 (by decide) (by decide) (by decide)
  refine ⟨hp _ (show 10 ∉ v1.tok ++ [46] from ?_), rfl⟩
  simp [e1]

theorem fr142 (hp : ∀ s : Bytes, 10 ∉ s → T s = true) : QStep T 141 := q2 rfl fun t1 t2 v1 v2 v _ h1 h2 h => by
  cases h
  have e1 := QTok.plain h2 (by decide) (by decide) (by decide)
  refine ⟨hp _ (show 10 ∉ [46] ++ v2.tok from ?_), rfl⟩
  simp [e1]

theorem fit_addComment (v : Val) (p : Pos) (t : Bytes) (h : fitO T false v.exprs = true) : fitO T false (addComment v p t).exprs = true := by
  unfold addComment
  dsimp only
  rw [fitO_modLast _ (fun x => keep_setAfter _ x)]
  split
  · exact h
  · rw [fitO_append, h]; rfl

theorem fr7 (hp : ∀ s : Bytes, 10 ∉ s → T s = true) : QStep T 6 := q3 rfl fun t1 t2 t3 v1 v2 v3 v _ h1 h2 h3 h => by
  cases h
  exact fit_addComment _ _ _ h1

theorem fr12 (hp : ∀ s : Bytes, 10 ∉ s → T s = true) : QStep T 11 := q3 rfl fun t1 t2 t3 v1 v2 v3 v _ h1 h2 h3 h => by
  cases h
  refine ⟨fun he => ?_, fit_addComment _ _ _ h1.2⟩
  exfalso
  have he : modLast _ (if v1.last = true then v1.exprs else v1.exprs ++ [.commentBlock {} v2.pos]) = [] := he
  rw [modLast_nil] at he
  split at he
  · rename_i hl
    rw [(h1.1 he).1] at hl
    cases hl
  · simp at he

theorem fitO_dropLast : ∀ l : List Expr, fitO T false l = true → fitO T false l.dropLast = true
  | [], _ => rfl
  | [x], _ => rfl
  | x :: y :: l, h => by
    have ih := fitO_dropLast (y :: l)
    simp only [fitO, Bool.and_eq_true, List.dropLast] at h ih ⊢
    exact ⟨h.1, ih h.2⟩

theorem fr10 (hp : ∀ s : Bytes, 10 ∉ s → T s = true) : QStep T 9 := q2 rfl fun t1 t2 v1 v2 v _ h1 h2 h => by
  cases h
  obtain ⟨a1, a2⟩ := h1
  obtain ⟨b1, b2⟩ := h2
  have : (addStmt v1 v2).exprs ≠ [] ∧ fitO T false (addStmt v1 v2).exprs = true := by
    unfold addStmt
    split
    · split
      · simp [b1, fitO_append, a2, b2]
      · split
        · simp [b1, modHead_nil, fitO_append, fitO_modHead _ (keep_setBefore _), fitO_dropLast _ a2, b2]
        · simp [b1, modHead_nil, fitO_append, fitO_modHead _ (keep_setBefore _), fitO_modLast _ (keep_setAfter _), a2, b2]
    · simp [b1, fitO_append, a2, b2]
  exact ⟨fun he => absurd he this.1, this.2⟩

theorem fr2 (hp : ∀ s : Bytes, 10 ∉ s → T s = true) : QStep T 1 := q5 rfl fun t1 t2 t3 t4 t5 v1 v2 v3 v4 v5 v hT h1 h2 h3 h4 h5 h => by
  have h : mkSuite v1 v2 v4 = some v := h
  have h2 : fitO T false v2.exprs = true := h2
  obtain ⟨h41, h42⟩ := h4
  have hne : v4.exprs ≠ [] := by
    intro he
    have h41 := (h41 he).2
    obtain ⟨⟨t3, rfl, k3⟩, _⟩ := h3
    obtain ⟨⟨t5, rfl, k5⟩, _⟩ := h5
    cases t4 with
    | nil => exact (hT.block (t1 ++ t2) t3 t5 [] (by simp) k3).2.2 k5
    | cons u t4 => exact (hT.block (t1 ++ t2) t3 u (t4 ++ [t5]) (by simp) k3).1 (h41 u (by simp))
  unfold mkSuite at h
  split at h
  · cases h; exact ⟨hne, h42⟩
  · split at h
    · rename_i s l c hs hc
      split at h
      · cases h
        refine ⟨by simp, ?_⟩
        show fitO T false (v2.exprs.dropLast ++ _) = true
        rw [hs] at h42
        simp only [fitO_append, fitO_dropLast _ h2, fitO, (keep_setBefore (T := T) _ _).1, (keep_setBefore _ _).2, Bool.true_and] at h42 ⊢
        exact h42
      · cases h
        refine ⟨by simp [hne], ?_⟩
        show fitO T false (v2.exprs ++ v4.exprs) = true
        rw [fitO_append, h2, h42]; rfl
    · cases h

theorem splitAt_append : ∀ (l a b : List Expr), splitAtLastStmt l = some (a, b) → l = a ++ b ∧ b ≠ [] := by
  intro l
  induction l with
  | nil => intro a b h; cases h
  | cons x l ih =>
    intro a b h
    unfold splitAtLastStmt at h
    split at h
    · rename_i a' b' h'
      cases h
      obtain ⟨h1, h2⟩ := ih _ _ h'
      exact ⟨by rw [h1]; rfl, h2⟩
    · split at h
      · cases h
      · cases h; exact ⟨rfl, by simp⟩

theorem fit_extractLoop (ind : Nat) : ∀ (l : List Expr) (first : Bool), fitO T false l = true →
    fitO T false (extractLoop ind first l).1 = true ∧ fitO T false (extractLoop ind first l).2 = true ∧ (first = true → l ≠ [] → (extractLoop ind first l).1 ≠ []) := by
  intro l
  induction l with
  | nil => intro first _; exact ⟨rfl, rfl, fun _ h => absurd rfl h⟩
  | cons s l ih =>
    intro first h
    unfold extractLoop
    have h0 := h
    simp only [fitO, Bool.and_eq_true] at h
    split
    · rename_i stay go _
      dsimp only
      refine ⟨?_, ?_, ?_⟩
      · split
        · rfl
        · simp only [fitO, (keep_setAfter (T := T) stay s).1, (keep_setAfter stay s).2, h.1, Bool.and_self]
      · simp only [fitO, fit, h.2, Bool.or_true, Bool.and_self]
      · intro hf _
        rw [hf]; simp
    · obtain ⟨a1, a2, _⟩ := ih false h.2
      dsimp only
      refine ⟨?_, a2, fun _ _ => by simp⟩
      simp only [fitO, h.1, a1, Bool.and_self]

theorem fit_extractBody (l : List Expr) (h : fitO T false l = true) :
    fitO T false (extractBody l).1 = true ∧ fitO T false (extractBody l).2 = true ∧ ((extractBody l).1.isEmpty = l.isEmpty) := by
  unfold extractBody
  split
  · exact ⟨rfl, rfl, rfl⟩
  · rename_i x l' 
    split
    · exact ⟨h, rfl, rfl⟩
    · rename_i a b hs
      obtain ⟨e1, e2⟩ := splitAt_append _ _ _ hs
      rw [e1, fitO_append, Bool.and_eq_true] at h
      obtain ⟨a1, a2, a3⟩ := fit_extractLoop x.startPos.lineRune b true h.2
      dsimp only
      refine ⟨by rw [fitO_append, h.1, a1]; rfl, a2, ?_⟩
      have := a3 rfl e2
      generalize (extractLoop x.startPos.lineRune true b).1 = y at this ⊢
      cases y with
      | nil => exact absurd rfl this
      | cons z y => cases a <;> rfl

theorem fit_extract : ∀ (f : Nat) (s : Expr), fit T false s = true → fit T false (extractTrailing f s).1 = true ∧ fitO T false (extractTrailing f s).2 = true := by
  intro f
  induction f with
  | zero => intro s h; exact ⟨h, rfl⟩
  | succ f ih =>
    intro s h
    unfold extractTrailing
    split
    · rename_i c sp n ps body cp fc fm t
      simp only [fit, Bool.and_eq_true] at h
      obtain ⟨a1, a2, _⟩ := fit_extractBody body h.2.1.2
      refine ⟨?_, a2⟩
      simp only [fit, Bool.and_eq_true]
      exact ⟨h.1, ⟨h.2.1.1, a1⟩, h.2.2⟩
    · rename_i c fp vs x body
      simp only [fit, Bool.and_eq_true] at h
      obtain ⟨a1, a2, _⟩ := fit_extractBody body h.2
      refine ⟨?_, a2⟩
      simp only [fit, Bool.and_eq_true]
      exact ⟨h.1, a1⟩
    · rename_i c ip co t ep fa
      simp only [fit, Bool.and_eq_true] at h
      split
      · obtain ⟨a1, a2, a3⟩ := fit_extractBody t h.1.1.2
        refine ⟨?_, a2⟩
        simp only [fit, Bool.and_eq_true, a3]
        exact ⟨⟨⟨h.1.1.1, a1⟩, h.1.2⟩, rfl⟩
      · rename_i c2 ip2 co2 t2 ep2 fa2
        have h2 := h.2
        simp only [fitO, Expr.isNil, Bool.false_or, Bool.and_true] at h2
        obtain ⟨a1, a2⟩ := ih _ h2
        refine ⟨?_, a2⟩
        simp only [fit, fitO, Bool.and_eq_true, Bool.or_eq_true]
        exact ⟨h.1, .inr a1, trivial⟩
      · obtain ⟨a1, a2, a3⟩ := fit_extractBody fa h.2
        refine ⟨?_, a2⟩
        simp only [fit, Bool.and_eq_true]
        exact ⟨h.1, a1⟩
    · exact ⟨h, rfl⟩

theorem fr14 (hp : ∀ s : Bytes, 10 ∉ s → T s = true) : QStep T 13 := q1 rfl fun t1 v1 v _ h1 h => by
  have h : (let (s, cbs) := extractTrailing (chainLength v1.expr) v1.expr
    some { v1 with exprs := s :: cbs, last := cbs.isEmpty || v1.last }) = some v := h
  obtain ⟨a1, a2⟩ := fit_extract (T := T) (chainLength v1.expr) v1.expr h1
  generalize extractTrailing (chainLength v1.expr) v1.expr = p at a1 a2 h
  cases h
  refine ⟨by simp, ?_⟩
  show fitO T false (p.1 :: p.2) = true
  simp only [fitO, a1, a2, Bool.or_true, Bool.and_self]

theorem fr17 (hp : ∀ s : Bytes, 10 ∉ s → T s = true) : QStep T 16 := q3 rfl fun t1 t2 t3 v1 v2 v3 v _ h1 h2 h3 h => by
  obtain ⟨c, sp, n, ps, b, cp, fc, fm, t, e, rfl⟩ := sem17 (h : sem 17 [v1, v2, v3] = some v)
  have h1 : fit T false v1.expr = true := h1
  have h3 : fit T false v3.expr = true := h3.1
  rw [e] at h1
  show fit T false (.defS c sp n ps b cp fc fm v3.expr) = true
  simp only [fit, Bool.and_eq_true, Bool.or_eq_true] at h1 ⊢
  exact ⟨h1.1, h1.2.1, .inr h3⟩

theorem fr18 (hp : ∀ s : Bytes, 10 ∉ s → T s = true) : QStep T 17 := q3 rfl fun t1 t2 t3 v1 v2 v3 v _ h1 h2 h3 h => by
  obtain ⟨c, sp, n, ps, b, cp, fc, fm, t, e, rfl⟩ := sem18 (h : sem 18 [v1, v2, v3] = some v)
  have h1 : fit T false v1.expr = true := h1
  have h3 : v3.exprs ≠ [] ∧ fitO T false v3.exprs = true := h3
  rw [e] at h1
  show fit T false (.defS c sp n ps v3.exprs v2.pos fc fm t) = true
  simp only [fit, Bool.and_eq_true, Bool.or_eq_true] at h1 ⊢
  exact ⟨h1.1, ⟨h1.2.1.1, h3.2⟩, h1.2.2⟩

theorem fit_setElse : ∀ (f : Nat) (p : Pos) (new : List Expr) (e e' : Expr), fitO T false new = true → fit T false e = true → setElse f p new e = some e' → fit T false e' = true := by
  intro f
  induction f with
  | zero => intro p new e e' _ _ h; cases h
  | succ f ih =>
    intro p new e e' hn he h
    unfold setElse at h
    split at h
    · cases h
    · rename_i f' c ip co t ep fa hf
      simp only [fit, Bool.and_eq_true] at he
      split at h
      · rename_i x
        rw [Option.map_eq_some_iff] at h
        obtain ⟨x', hx, rfl⟩ := h
        cases hf
        have h2 := he.2
        simp only [fitO, Bool.and_true, Bool.or_eq_true] at h2
        simp only [fit, fitO, Bool.and_eq_true, Bool.or_eq_true]
        refine ⟨he.1, .inr ?_, trivial⟩
        rcases h2 with h2 | h2
        · cases x with
          | nil => cases f <;> cases hx
          | _ => cases h2
        · exact ih _ _ _ _ hn h2 hx
      · cases h
        simp only [fit, Bool.and_eq_true]
        exact ⟨he.1, hn⟩
    · cases h

theorem fr22 (hp : ∀ s : Bytes, 10 ∉ s → T s = true) : QStep T 21 := q5 rfl fun t1 t2 t3 t4 t5 v1 v2 v3 v4 v5 v _ h1 h2 h3 h4 h5 h => by
  have h : (setElse (chainLength v1.expr) v2.pos [.ifS {} v2.pos v3.expr v5.exprs {} []] v1.expr).map (fun e => { v1 with expr := e, last := v5.last }) = some v := h
  rw [Option.map_eq_some_iff] at h
  obtain ⟨e, he, rfl⟩ := h
  have h3 : fit T false v3.expr = true := h3
  have h5 : v5.exprs ≠ [] ∧ fitO T false v5.exprs = true := h5
  refine fit_setElse _ _ _ _ _ ?_ h1 he
  simp [fitO, fit, h3, h5]

theorem fr24 (hp : ∀ s : Bytes, 10 ∉ s → T s = true) : QStep T 23 := q4 rfl fun t1 t2 t3 t4 v1 v2 v3 v4 v _ h1 h2 h3 h4 h => by
  have h : (setElse (chainLength v1.expr) v2.pos v4.exprs v1.expr).map (fun e => { v1 with expr := e, last := v4.last }) = some v := h
  rw [Option.map_eq_some_iff] at h
  obtain ⟨e, he, rfl⟩ := h
  exact fit_setElse _ _ _ _ _ h4.2 h1 he

theorem fitLoad_pairs : ∀ l : List (IdentN × IdentN), l.all (fitPair T) = true → fitLoad T (l.map (·.1)) (l.map (·.2)) = true := by
  intro l
  induction l with
  | nil => intro _; rfl
  | cons p l ih =>
    intro h
    rw [List.all_cons, Bool.and_eq_true] at h
    show (fitPair T p && fitLoad T _ _) = true
    rw [h.1, ih h.2]; rfl

theorem fr44 (hp : ∀ s : Bytes, 10 ∉ s → T s = true) : QStep T 43 := q8 rfl fun t1 t2 t3 t4 t5 t6 t7 t8 v1 v2 v3 v4 v5 v6 v7 v8 v _ h1 h2 h3 h4 h5 h6 h7 h8 h => by
  cases h
  obtain ⟨n, hn, h4, _⟩ := h4
  refine ⟨?_, rfl⟩
  show (fitString T (asString v4.expr) && fitLoad T (v6.loadargs.map (·.1)) (v6.loadargs.map (·.2))) = true
  rw [hn, fitLoad_pairs _ h6, Bool.and_true]
  exact h4

theorem fr54 (hp : ∀ s : Bytes, 10 ∉ s → T s = true) : QStep T 53 := q3 rfl fun t1 t2 t3 v1 v2 v3 v _ h1 h2 h3 h => by
  have h2 : fitL T false v2.exprs = true := h2
  rw [show (53 + 1) = 54 from rfl, sem54] at h
  cases h
  show fit T false (parenOrTuple v1.pos v2 v3.pos) = true ∧ solid (parenOrTuple v1.pos v2 v3.pos) = true
  unfold parenOrTuple
  split
  · rename_i hc
    cases hl : v2.exprs with
    | nil => rw [hl] at hc; exact absurd hc.1 (by simp)
    | cons x l =>
      rw [hl] at h2
      simp only [fitL, Bool.and_eq_true] at h2
      simp [fit, solid, h2.1]
  · simp [fit, solid, fitO_of _ h2]

theorem fr116 (hp : ∀ s : Bytes, 10 ∉ s → T s = true) : QStep T 115 := q3 rfl fun t1 t2 t3 v1 v2 v3 v _ h1 h2 h3 h => by
  have e2 := QTok.text h2 hp (by decide) (by decide) (by decide)
  obtain ⟨h1, _⟩ := h1
  obtain ⟨h3, h3'⟩ := h3
  rw [show (115 + 1) = 116 from rfl, sem116] at h
  cases h
  show fit T false (mkIs v1.expr v2.pos v2.tok v3.expr) = true ∧ solid (mkIs v1.expr v2.pos v2.tok v3.expr) = true
  unfold mkIs
  split
  · rename_i c o uop z hz
    split
    · refine ⟨?_, solid_mkBinary _ _ _ _⟩
      rw [hz] at h3 h3'
      have h4 : z.isNil = false := by simpa [solid] using h3'
      simp only [fit, Bool.and_eq_true, h4, Bool.false_or] at h3
      rw [fit_mkBinary, h1, hp b!"is not" (by decide), h3.2]; rfl
    · refine ⟨?_, solid_mkBinary _ _ _ _⟩
      rw [fit_mkBinary, h1, e2, ← hz, h3]; rfl
  · refine ⟨?_, solid_mkBinary _ _ _ _⟩
    rw [fit_mkBinary, h1, e2, h3]; rfl

theorem fr40 (hp : ∀ s : Bytes, 10 ∉ s → T s = true) : QStep T 39 := q1 rfl fun t1 v1 v _ h1 h => by
  cases h
  obtain ⟨n, g, k⟩ := h1
  show fit T false v1.expr = true ∧ solid v1.expr = true
  rw [g]; exact ⟨k, rfl⟩

theorem fr42 (hp : ∀ s : Bytes, 10 ∉ s → T s = true) : QStep T 41 := q1 rfl fun t1 v1 v _ h1 h => by
  cases h
  obtain ⟨n, g, k, _⟩ := h1
  show fit T false v1.expr = true ∧ solid v1.expr = true
  rw [g]; exact ⟨k, rfl⟩

theorem fit_un {v1 v2 : Val} (h1 : T v1.tok = true) (h2 : fit T false v2.expr = true) :
    fit T false (mkUnary v1.pos v1.tok v2.expr) = true ∧ solid (mkUnary v1.pos v1.tok v2.expr) = true := by
  refine ⟨?_, ?_⟩
  · show (T v1.tok && (v2.expr.isNil || fit T false v2.expr)) = true
    rw [h1, h2, Bool.or_true]; rfl
  · show (!v2.expr.isNil) = true
    rw [fit_notNil h2]; rfl

theorem fr91 (hp : ∀ s : Bytes, 10 ∉ s → T s = true) : QStep T 90 := q2 rfl fun t1 t2 v1 v2 v _ h1 h2 h => by
  cases h
  exact fit_un (QTok.text h1 hp (by decide) (by decide) (by decide)) h2.1

theorem fr92 (hp : ∀ s : Bytes, 10 ∉ s → T s = true) : QStep T 91 := q2 rfl fun t1 t2 v1 v2 v _ h1 h2 h => by
  cases h
  exact fit_un (QTok.text h1 hp (by decide) (by decide) (by decide)) h2.1

theorem fr93 (hp : ∀ s : Bytes, 10 ∉ s → T s = true) : QStep T 92 := q2 rfl fun t1 t2 v1 v2 v _ h1 h2 h => by
  cases h
  exact fit_un (QTok.text h1 hp (by decide) (by decide) (by decide)) h2.1

theorem fr94 (hp : ∀ s : Bytes, 10 ∉ s → T s = true) : QStep T 93 := q2 rfl fun t1 t2 v1 v2 v _ h1 h2 h => by
  cases h
  exact fit_un (QTok.text h1 hp (by decide) (by decide) (by decide)) h2.1
