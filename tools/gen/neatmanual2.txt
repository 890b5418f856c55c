theorem neat_addComment (v : Val) (p : Pos) (t : Bytes) (h : neatS v.exprs = true) : neatS (addComment v p t).exprs = true := by
  unfold addComment
  dsimp only
  rw [neatS_modLast _ (fun x => neat_setAfter _ x)]
  split
  · exact h
  · rw [neatS_append, h]; rfl

theorem nr7 : NStep 6 := g3 rfl fun t1 t2 t3 v1 v2 v3 v _ h1 h2 h3 h => by
  cases h
  exact neat_addComment _ _ _ h1

theorem nr12 : NStep 11 := g3 rfl fun t1 t2 t3 v1 v2 v3 v _ h1 h2 h3 h => by
  cases h
  exact neat_addComment _ _ _ h1

theorem nr10 : NStep 9 := g2 rfl fun t1 t2 v1 v2 v _ h1 h2 h => by
  cases h
  have h1 : neatS v1.exprs = true := h1
  have h2 : neatS v2.exprs = true := h2
  show neatS (addStmt v1 v2).exprs = true
  unfold addStmt
  split
  · split
    · simp [neatS_append, h1, h2]
    · split
      · simp [neatS_append, neatS_modHead _ (neat_setBefore _), neatS_dropLast _ h1, h2]
      · simp [neatS_append, neatS_modHead _ (neat_setBefore _), neatS_modLast _ (neat_setAfter _), h1, h2]
  · simp [neatS_append, h1, h2]

theorem nr2 : NStep 1 := g5 rfl fun t1 t2 t3 t4 t5 v1 v2 v3 v4 v5 v hT h1 h2 h3 h4 h5 h => by
  have h : mkSuite v1 v2 v4 = some v := h
  have h2 : neatS v2.exprs = true := h2
  have h4 : neatS v4.exprs = true := h4
  show neatS v.exprs = true
  unfold mkSuite at h
  split at h
  · cases h; exact h4
  · split at h
    · rename_i s l c hs hc
      split at h
      · cases h
        show neatS (v2.exprs.dropLast ++ _) = true
        rw [hs] at h4
        simp only [neatS_append, neatS_dropLast _ h2, neatS, neat_setBefore, Bool.true_and] at h4 ⊢
        exact h4
      · cases h
        show neatS (v2.exprs ++ v4.exprs) = true
        rw [neatS_append, h2, h4]; rfl
    · cases h

theorem neat_extractLoop (ind : Nat) : ∀ (l : List Expr) (first : Bool), neatS l = true →
    neatS (extractLoop ind first l).1 = true ∧ neatS (extractLoop ind first l).2 = true ∧ (first = true → l ≠ [] → (extractLoop ind first l).1 ≠ []) := by
  intro l
  induction l with
  | nil => intro first _; exact ⟨rfl, rfl, fun _ h => absurd rfl h⟩
  | cons s l ih =>
    intro first h
    unfold extractLoop
    simp only [neatS, Bool.and_eq_true] at h
    split
    · rename_i stay go _
      dsimp only
      refine ⟨?_, ?_, fun hf _ => by rw [hf]; simp⟩
      · split
        · rfl
        · simp only [neatS, neat_setAfter, h.1, Bool.and_self]
      · show neatS (_ :: l) = true
        rw [neatS, h.2]; rfl
    · obtain ⟨a1, a2, _⟩ := ih false h.2
      dsimp only
      refine ⟨?_, a2, fun _ _ => by simp⟩
      simp only [neatS, h.1, a1, Bool.and_self]

theorem neat_extractBody (l : List Expr) (h : neatS l = true) :
    neatS (extractBody l).1 = true ∧ neatS (extractBody l).2 = true ∧ ((extractBody l).1.isEmpty = l.isEmpty) := by
  unfold extractBody
  split
  · exact ⟨rfl, rfl, rfl⟩
  · rename_i x l'
    split
    · exact ⟨h, rfl, rfl⟩
    · rename_i a b hs
      obtain ⟨e1, e2⟩ := splitAt_append _ _ _ hs
      rw [e1, neatS_append, Bool.and_eq_true] at h
      obtain ⟨a1, a2, a3⟩ := neat_extractLoop x.startPos.lineRune b true h.2
      dsimp only
      refine ⟨by rw [neatS_append, h.1, a1]; rfl, a2, ?_⟩
      have := a3 rfl e2
      generalize (extractLoop x.startPos.lineRune true b).1 = y at this ⊢
      cases y with
      | nil => exact absurd rfl this
      | cons z y => cases a <;> rfl

theorem neat_extract : ∀ (f : Nat) (s : Expr), neat s = true→
    neat (extractTrailing f s).1 = true ∧ neatS (extractTrailing f s).2 = true := by
  intro f
  induction f with
  | zero => intro s h; exact ⟨h, rfl⟩
  | succ f ih =>
    intro s h
    unfold extractTrailing
    split
    · rename_i c sp n ps body cp fc fm t
      simp only [neat, Bool.and_eq_true] at h
      obtain ⟨a1, a2, a3⟩ := neat_extractBody body h.1.2
      refine ⟨?_, a2⟩
      simp only [neat, Bool.and_eq_true]
      exact ⟨⟨h.1.1, a1⟩, h.2⟩
    · rename_i c fp vs x body
      simp only [neat, Bool.and_eq_true] at h
      obtain ⟨a1, a2, a3⟩ := neat_extractBody body h.2
      refine ⟨?_, a2⟩
      simp only [neat, Bool.and_eq_true]
      exact ⟨h.1, a1⟩
    · rename_i c ip co t ep fa
      simp only [neat, neatElse, Bool.and_eq_true] at h
      split
      · obtain ⟨a1, a2, a3⟩ := neat_extractBody t h.1.1.2
        refine ⟨?_, a2⟩
        simp only [neat, neatElse, Bool.and_eq_true]
        exact ⟨⟨⟨h.1.1.1, a1⟩, h.1.2⟩, rfl⟩
      · rename_i c2 ip2 co2 t2 ep2 fa2
        have h2 := h.2
        simp only [neatS, Bool.and_true] at h2
        obtain ⟨a1, a2⟩ := ih _ h2
        refine ⟨?_, a2⟩
        simp only [neat, neatElse, neatS, Bool.and_eq_true]
        exact ⟨⟨h.1.1, rfl, h.1.2.2⟩, a1, trivial⟩
      · obtain ⟨a1, a2, a3⟩ := neat_extractBody fa h.2
        refine ⟨?_, a2⟩
        simp only [neat, neatElse, Bool.and_eq_true, a3]
        exact ⟨h.1, a1⟩
    · exact ⟨h, rfl⟩

theorem nr14 : NStep 13 := g1 rfl fun t1 v1 v _ h1 h => by
  have h : (let (s, cbs) := extractTrailing (chainLength v1.expr) v1.expr
    some { v1 with exprs := s :: cbs, last := cbs.isEmpty || v1.last }) = some v := h
  have h1 : tidyE v1.expr = true := h1
  obtain ⟨a1, a2⟩ := neat_extract (chainLength v1.expr) v1.expr (Bool.and_eq_true_iff.1 h1).1
  generalize extractTrailing (chainLength v1.expr) v1.expr = p at a1 a2 h
  cases h
  show neatS (p.1 :: p.2) = true
  simp only [neatS, a1, a2, Bool.and_self]

theorem nr17 : NStep 16 := g3 rfl fun t1 t2 t3 v1 v2 v3 v _ h1 h2 h3 h => by
  obtain ⟨c, sp, n, ps, b, cp, fc, fm, t, e, rfl⟩ := sem17 (h : sem 17 [v1, v2, v3] = some v)
  have h1 : tidyE v1.expr = true := h1
  have h3 : tidyE v3.expr = true := h3
  rw [e] at h1
  show tidyE (.defS c sp n ps b cp fc fm v3.expr) = true
  simp only [tidyE, neat, ac_defS, Bool.and_eq_true] at h1 ⊢
  exact ⟨⟨h1.1.1, Bool.and_eq_true_iff.1 h3⟩, h1.2⟩

theorem nr18 : NStep 17 := g3 rfl fun t1 t2 t3 v1 v2 v3 v _ h1 h2 h3 h => by
  obtain ⟨c, sp, n, ps, b, cp, fc, fm, t, e, rfl⟩ := sem18 (h : sem 18 [v1, v2, v3] = some v)
  have h1 : tidyE v1.expr = true := h1
  have h3 : neatS v3.exprs = true := h3
  rw [e] at h1
  show tidyE (.defS c sp n ps v3.exprs v2.pos fc fm t) = true
  simp only [tidyE, neat, ac_defS, Bool.and_eq_true] at h1 ⊢
  exact ⟨⟨⟨h1.1.1.1, h3⟩, h1.1.2⟩, h1.2⟩

theorem neat_setElse : ∀ (f : Nat) (p : Pos) (new : List Expr) (e e' : Expr), neatS new = true → neat e = true → setElse f p new e = some e' → neat e' = true := by
  intro f
  induction f with
  | zero => intro p new e e' _ _ h; cases h
  | succ f ih =>
    intro p new e e' hn he h
    unfold setElse at h
    split at h
    · cases h
    · rename_i f' c ip co t ep fa hf
      simp only [neat, neatElse, Bool.and_eq_true] at he
      split at h
      · rename_i x
        rw [Option.map_eq_some_iff] at h
        obtain ⟨x', hx, rfl⟩ := h
        cases hf
        have h2 := he.2
        simp only [neatS, Bool.and_true] at h2
        simp only [neat, neatElse, neatS, Bool.and_eq_true]
        exact ⟨⟨he.1.1, rfl, he.1.2.2⟩, ih _ _ _ _ hn h2 hx, trivial⟩
      · cases h
        simp only [neat, neatElse, Bool.and_eq_true]
        exact ⟨⟨he.1.1, by simp, rfl⟩, hn⟩
    · cases h

theorem after_setElse {f : Nat} {p : Pos} {new : List Expr} {e e' : Expr} (h : setElse f p new e = some e') : afterC e' = afterC e := by
  cases f with
  | zero => cases h
  | succ f =>
    unfold setElse at h
    split at h
    · cases h
    · split at h
      · rw [Option.map_eq_some_iff] at h
        obtain ⟨x', hx, rfl⟩ := h
        rfl
      · cases h; rfl
    · cases h

theorem tidy_setElse (f : Nat) (p : Pos) (new : List Expr) (e e' : Expr) (hn : neatS new = true) (he : tidyE e = true) (h : setElse f p new e = some e') : tidyE e' = true := by
  unfold tidyE at he ⊢
  rw [Bool.and_eq_true] at he ⊢
  rw [after_setElse h]
  exact ⟨neat_setElse _ _ _ _ _ hn he.1 h, he.2⟩

theorem nr22 : NStep 21 := g5 rfl fun t1 t2 t3 t4 t5 v1 v2 v3 v4 v5 v _ h1 h2 h3 h4 h5 h => by
  have h : (setElse (chainLength v1.expr) v2.pos [.ifS {} v2.pos v3.expr v5.exprs {} []] v1.expr).map (fun e => { v1 with expr := e, last := v5.last }) = some v := h
  rw [Option.map_eq_some_iff] at h
  obtain ⟨e, he, rfl⟩ := h
  have h3 : tidyE v3.expr = true := h3
  have h5 : neatS v5.exprs = true := h5
  refine tidy_setElse _ _ _ _ _ ?_ h1 he
  simp only [neatS, neat, Bool.and_eq_true]
  exact ⟨⟨⟨⟨⟨rfl, Bool.and_eq_true_iff.1 h3⟩, h5⟩, rfl⟩, trivial⟩, trivial⟩

theorem nr24 : NStep 23 := g4 rfl fun t1 t2 t3 t4 v1 v2 v3 v4 v _ h1 h2 h3 h4 h => by
  have h : (setElse (chainLength v1.expr) v2.pos v4.exprs v1.expr).map (fun e => { v1 with expr := e, last := v4.last }) = some v := h
  rw [Option.map_eq_some_iff] at h
  obtain ⟨e, he, rfl⟩ := h
  exact tidy_setElse _ _ _ _ _ h4 h1 he

theorem nr64 : NStep 63 := g3 rfl fun t1 t2 t3 v1 v2 v3 v _ h1 h2 h3 h => by
  cases h
  intro p hp
  rcases List.mem_append.1 (show p ∈ v1.loadargs ++ v3.loadargs from hp) with h | h
  · exact h1 p h
  · exact h3 p h

theorem neatLoad_pairs : ∀ l : List (IdentN × IdentN), (∀ p ∈ l, p.1.comments.after = [] ∧ p.2.comments.after = []) → neatLoad (l.map (·.1)) (l.map (·.2)) = true := by
  intro l
  induction l with
  | nil => intro _; rfl
  | cons p l ih =>
    intro h
    have := h p (List.mem_cons_self ..)
    simp only [List.map_cons, neatLoad, this, ih (fun q hq => h q (List.mem_cons_of_mem _ hq)), List.isEmpty_nil, Bool.and_self]

theorem nr44 : NStep 43 := g8 rfl fun t1 t2 t3 t4 t5 t6 t7 t8 v1 v2 v3 v4 v5 v6 v7 v8 v _ h1 h2 h3 h4 h5 h6 h7 h8 h => by
  cases h
  obtain ⟨n, hn, h4⟩ := h4
  show tidyE (.load {} v1.pos (asString v4.expr) (v6.loadargs.map (·.1)) (v6.loadargs.map (·.2)) ⟨{}, v8.pos⟩ _) = true
  simp only [tidyE, neat, hn, asString, h4, neatLoad_pairs _ h6, Bool.and_eq_true]
  exact ⟨⟨⟨rfl, trivial⟩, rfl⟩, rfl⟩

theorem nr48 : NStep 47 := g8 rfl fun t1 t2 t3 t4 t5 t6 t7 t8 v1 v2 v3 v4 v5 v6 v7 v8 v hT h1 h2 h3 h4 h5 h6 h7 h8 h => by
  cases h
  obtain ⟨t, rfl, hk, rfl, hc⟩ := h6
  have hp : t.pos.byte ≠ 0 := hc t (List.mem_singleton.2 rfl) hk
  have h1 : tidyE v1.expr = true := h1
  have h3 : tidyE v3.expr = true := h3
  have h5 : tidyE v5.expr = true := h5
  have h7 : tidyE v7.expr = true := h7
  show tidyE (.slice {} v1.expr v2.pos v3.expr v4.pos v5.expr t.pos v7.expr v8.pos) = true
  simp only [tidyE, neat, Bool.and_eq_true, Bool.or_eq_true, bne_iff_ne] at *
  exact ⟨⟨⟨⟨⟨h1, h3⟩, h5⟩, h7⟩, .inl hp⟩, rfl⟩

theorem nr54 : NStep 53 := g3 rfl fun t1 t2 t3 v1 v2 v3 v _ h1 h2 h3 h => by
  have h2 : neatL v2.exprs = true := h2
  rw [show (53 + 1) = 54 from rfl, sem54] at h
  cases h
  show tidyE (parenOrTuple v1.pos v2 v3.pos) = true
  unfold parenOrTuple
  split
  · rename_i hc
    cases hl : v2.exprs with
    | nil => rw [hl] at hc; exact absurd hc.1 (by simp)
    | cons x l =>
      rw [hl] at h2
      simp only [neatL, tidyE, Bool.and_eq_true] at h2
      simp only [List.headD_cons, tidyE, neat, Bool.and_eq_true]
      exact ⟨⟨h2.1, rfl⟩, rfl⟩
  · simp only [tidyE, neat, h2]; rfl

theorem nr116 : NStep 115 := g3 rfl fun t1 t2 t3 v1 v2 v3 v _ h1 h2 h3 h => by
  have h1 : tidyE v1.expr = true := h1
  have h3 : tidyE v3.expr = true := h3
  rw [show (115 + 1) = 116 from rfl, sem116] at h
  cases h
  show tidyE (mkIs v1.expr v2.pos v2.tok v3.expr) = true
  unfold mkIs
  split
  · rename_i c o uop z hz
    rw [hz, tidy_unary, Bool.and_eq_true] at h3
    split
    · rw [tidy_mkBinary, h1, h3.1]; rfl
    · rw [tidy_mkBinary, h1, tidy_unary, h3.1, h3.2]; rfl
  · rw [tidy_mkBinary, h1, h3]; rfl
