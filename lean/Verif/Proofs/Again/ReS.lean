import Verif.Proofs.Again.Str
import Verif.Proofs.Again.GenE
/-
The second printing of statements.
-/
namespace Verif.Again
open Verif Verif.Syntax Verif.Lexer Verif.Print Verif.Parser Verif.Grammar Verif.Props.Grammar Verif.Round

theorem line_newline' {st : St} (h : st.comment = []) : line (newline st) = line st + 1 := by
  rw [newline_pending h, line_emit, nl_cons, nl_spaces]
  show 1 + Again.nl (st.out.dropWhile (· == 32)) + _ = _
  rw [nl_dropWhile]; unfold line; simp

theorem newline_comment {st : St} (h : st.comment = []) : (newline st).comment = [] := by
  rw [newline_pending h]; exact h

theorem name_nl {t : Bytes} (h : Name t) : Again.nl t = 0 := by
  obtain ⟨c, s, rfl, h1, _, h2, _⟩ := h
  refine List.count_eq_zero.2 (fun hb => ?_)
  have key : Props.Lexer.wordByte 10 → False := by unfold Props.Lexer.wordByte; decide
  rcases List.mem_cons.1 hb with h | h
  · exact key (h ▸ h1)
  · exact key (h2 _ h)

section
variable {ft : FileType} {pr : Pr}

/-! ## Load statements -/

/-- what is printed for an argument of a load statement, and the tokens of it -/
def LoadIt (pr : Pr) (it : It) (as : List LTok) : Prop :=
  Clean it.2 ∧ match it.1 with
    | .string n => ∃ t, Quote.printString n.token n.value n.triple = some t ∧ pr it.1 0 it.2 = emit t it.2 ∧ as = [WS (line it.2) t n.value n.triple]
    | .assign _ (.ident n) _ _ _ (.string m) => ∃ t, Quote.printString m.token m.value m.triple = some t ∧
        pr it.1 0 it.2 = emit t (emit b!" " (emit b!" =" (emit n.name it.2))) ∧
        as = [W (line it.2) K.ident n.name, W (line it.2) 61 b!"=", WS (line it.2) t m.value m.triple]
    | _ => False

theorem LoadIt.elem {it : It} {as} (h : LoadIt pr it as) : LoadElem it.1 as := by
  obtain ⟨hc, h⟩ := h
  unfold LoadElem
  split
  · rename_i n hn
    rw [hn] at h
    obtain ⟨t, _, _, e⟩ := h
    exact ⟨_, t, e⟩
  · rename_i n _ _ _ m hn
    rw [hn] at h
    obtain ⟨t, _, _, e⟩ := h
    exact ⟨_, _, _, t, e⟩
  · rename_i h1 h2
    split at h
    · rename_i n hn; exact h1 _ hn
    · rename_i n _ _ _ m hn; exact h2 _ _ _ _ _ _ hn
    · exact h

theorem string_settles {n : StringN} {t : Bytes} {o st} (hc : Clean st) (hcom : n.comments = {}) (h : Quote.printString n.token n.value n.triple = some t) :
    Settles ft (.string n) o st (emit t st) :=
  settles_body hc hcom ⟨0, fun F _ => by
    show (match Quote.printString n.token n.value n.triple with
      | some s => emit s st
      | none => { st with bad := true }) = _
    rw [h]⟩

theorem ident_settles {n : IdentN} {o st} (hc : Clean st) (hcom : n.comments = {}) : Settles ft (.ident n) o st (emit n.name st) :=
  settles_body hc hcom ⟨0, fun _ _ => rfl⟩

/-- the same loaded name -/
theorem load_name {f t f' t' : IdentN} {it : It} {as} (hf : f'.name = f.name) (ht : t'.name = t.name) (hf' : f'.comments = {}) (ht' : t'.comments = {})
    (hit : it.1 = (if f.name = t.name then .string { identString f with comments := { f.comments with before := t.comments.before } }
     else .assign {} (.ident t) {} b!"=" false (.string (identString f)))) (h : LoadIt pr it as) :
    WI ft pr it (if f'.name = t'.name then .string { identString f' with comments := { f'.comments with before := t'.comments.before } }
     else .assign {} (.ident t') {} b!"=" false (.string (identString f'))) := by
  obtain ⟨hc, h⟩ := h
  rw [hf, ht]
  by_cases hn : f.name = t.name
  · rw [if_pos hn] at hit ⊢
    rw [hit] at h
    obtain ⟨tx, h1, h2, _⟩ := h
    refine ⟨?_, fun m => by rw [hit]; cases m <;> rfl, fun _ => rfl⟩
    rw [hit, h2]
    refine string_settles hc (by show { f'.comments with before := t'.comments.before } = _; rw [hf', ht']) ?_
    show Quote.printString [] f'.name false = _
    rw [hf]; exact h1
  · rw [if_neg hn] at hit ⊢
    rw [hit] at h
    obtain ⟨tx, h1, h2, _⟩ := h
    refine ⟨?_, fun m => by rw [hit]; cases m <;> rfl, fun _ => rfl⟩
    rw [hit, h2]
    refine settles_body hc rfl ?_
    obtain ⟨N1, e1⟩ := ident_settles (ft := ft) (n := t') (o := precAssign) (st := it.2) hc ht'
    obtain ⟨N2, e2⟩ := string_settles (ft := ft) (n := identString f') (t := tx) (o := precAssign + 1) (st := emit b!" " (emit b!" =" (emit t'.name it.2))) hc hf'
      (by show Quote.printString [] f'.name false = _; rw [hf]; exact h1)
    refine ⟨N1 + N2, fun F hF => ?_⟩
    show withParen precAssign 0 (fun st => { expr ft F (.string (identString f')) (precAssign + 1) (emit b!" " (emit (b!" " ++ b!"=") (expr ft F (.ident t') precAssign st))) with margin := st.margin }) it.2 = _
    rw [withParen_le (Nat.zero_le _), e1 F (by omega)]
    have := e2 F (by omega)
    rw [show emit (b!" " ++ b!"=") (emit t'.name it.2) = emit b!" =" (emit t'.name it.2) from rfl, this, ht]
    rfl

theorem load_names : ∀ {fs ts fs' ts' : List IdentN} {its : List It} {ass}, fs.length = ts.length → fs'.map (·.name) = fs.map (·.name) → ts'.map (·.name) = ts.map (·.name) →
    (∀ n ∈ fs', n.comments = {}) → (∀ n ∈ ts', n.comments = {}) → its.map (·.1) = loadArgs fs ts → All2 (LoadIt pr) its ass → All2 (WI ft pr) its (loadArgs fs' ts') := by
  intro fs
  induction fs with
  | nil =>
    intro ts fs' ts' its ass hl hf ht h1 h2 hi h
    have : fs' = [] := by simpa using hf
    subst this
    have : its = [] := by simpa [loadArgs] using hi
    subst this
    exact .nil
  | cons f fs ih =>
    intro ts fs' ts' its ass hl hf ht h1 h2 hi h
    cases ts with
    | nil => cases hl
    | cons t ts =>
      cases fs' with
      | nil => cases hf
      | cons f' fs' =>
        cases ts' with
        | nil => cases ht
        | cons t' ts' =>
          simp only [List.map_cons, List.cons.injEq] at hf ht
          cases h with
          | nil => cases hi
          | cons it as its ass ha hb =>
            simp only [List.map_cons, loadArgs, List.cons.injEq] at hi
            unfold loadArgs
            exact .cons _ _ _ _ (load_name hf.1 ht.1 (h1 _ (by simp)) (h2 _ (by simp)) hi.1 ha)
              (ih (by simpa using hl) hf.2 ht.2 (fun n hn => h1 n (by simp [hn])) (fun n hn => h2 n (by simp [hn])) hi.2 hb)

/-- on one line -/
def flat (x : Expr) : Prop :=
  match x with
  | .string n => ∀ t, Quote.printString n.token n.value n.triple = some t → Again.nl t = 0
  | .assign _ (.ident n) _ _ _ (.string m) => Again.nl n.name = 0 ∧ ∀ t, Quote.printString m.token m.value m.triple = some t → Again.nl t = 0
  | _ => True

theorem LoadIt.line {it : It} {as} (h : LoadIt pr it as) : Clean (pr it.1 0 it.2) ∧ Again.line it.2 ≤ Again.line (pr it.1 0 it.2) ∧ (flat it.1 → Again.line (pr it.1 0 it.2) = Again.line it.2) := by
  obtain ⟨hc, h⟩ := h
  split at h
  · rename_i n hn
    obtain ⟨t, h1, h2, _⟩ := h
    rw [h2, line_emit]
    refine ⟨hc, by omega, fun hf => ?_⟩
    rw [hn] at hf
    have : Again.nl t = 0 := hf t h1
    omega
  · rename_i n _ _ _ m hn
    obtain ⟨t, h1, h2, _⟩ := h
    rw [h2, line_emit, line_emit, line_emit, line_emit]
    refine ⟨hc, by omega, fun hf => ?_⟩
    rw [hn] at hf
    have h3 : Again.nl t = 0 := hf.2 t h1
    have h4 : Again.nl n.name = 0 := hf.1
    have h5 : Again.nl b!" " = 0 := rfl
    have h6 : Again.nl b!" =" = 0 := rfl
    omega
  · cases h

theorem load_compact : ∀ {l : List Expr} {first : Bool} {st : St} {ass}, All2 (LoadIt pr) (itemsC pr first l st) ass → (∀ x ∈ l, flat x) →
    line (compactElems pr first l st) = line st := by
  intro l
  induction l with
  | nil => intros; rfl
  | cons x l ih =>
    intro first st ass h hf
    cases h with
    | cons _ as _ ass h1 h2 =>
      have := ih h2 (fun y hy => hf y (by simp [hy]))
      show line (compactElems pr false l (pr x 0 _)) = _
      rw [this, h1.line.2.2 (hf x (by simp))]
      dsimp only
      split
      · rfl
      · rw [line_emit]; rfl

theorem load_multi : ∀ {l : List Expr} {first : Bool} {st : St} {ass}, Clean st → All2 (LoadIt pr) (itemsM pr .load first l st) ass →
    Clean (multiElems pr .load first l st) ∧ line st ≤ line (multiElems pr .load first l st) := by
  intro l
  induction l with
  | nil => intro first st ass hc _; exact ⟨hc, Nat.le_refl _⟩
  | cons x l ih =>
    intro first st ass hc h
    cases h with
    | cons _ as _ ass h1 h2 =>
      have hs : (if first && !st.comment.isEmpty then emit (10 :: spaces (st.margin - 2)) st else st) = st := by rw [hc.1]; simp
      have h1l := h1.line
      dsimp only at h1l
      rw [hs] at h1l
      have e2 : ∀ st1, line (if !l.isEmpty || needsTrailingComma .load x then emit b!"," st1 else st1) = line st1 := by
        intro st1; split
        · rw [line_emit]; rfl
        · rfl
      have hc2 : ∀ st1, Clean st1 → Clean (if !l.isEmpty || needsTrailingComma .load x then emit b!"," st1 else st1) := by
        intro st1 h; split <;> exact h
      have := ih (hc2 _ (by rw [hs]; exact h1l.1)) h2
      rw [e2, hs] at this
      show Clean (multiElems pr .load false l _) ∧ line st ≤ line (multiElems pr .load false l _)
      rw [hs]
      refine ⟨this.1, ?_⟩
      have h5 := line_newline hc
      have h6 := this.2
      have h7 := h1l.2.1
      omega

theorem loadArgs_mem : ∀ {fs ts : List IdentN} {x : Expr}, x ∈ loadArgs fs ts → ∃ f t, (f, t) ∈ fs.zip ts ∧
    x = (if f.name = t.name then .string { identString f with comments := { f.comments with before := t.comments.before } }
     else .assign {} (.ident t) {} b!"=" false (.string (identString f))) := by
  intro fs
  induction fs with
  | nil => intro ts x hx; cases hx
  | cons f fs ih =>
    intro ts x hx
    cases ts with
    | nil => cases hx
    | cons t ts =>
      unfold loadArgs at hx
      rcases List.mem_cons.1 hx with h | h
      · exact ⟨f, t, by simp, h⟩
      · obtain ⟨f', t', h1, h2⟩ := ih h
        exact ⟨f', t', by simp [h1], h2⟩

theorem flat_load {m : StringN} {fs ts : List IdentN} (h1 : (10 : UInt8) ∉ m.token) (h2 : m.triple = true → (10 : UInt8) ∉ m.value)
    (hn : ∀ q ∈ fs.zip ts, q.1.name = q.2.name ∨ Name q.2.name) : ∀ x ∈ Expr.string m :: loadArgs fs ts, flat x := by
  intro x hx
  rcases List.mem_cons.1 hx with rfl | hx
  · exact fun t ht => print_nl ht h1 h2
  · obtain ⟨f, t, h3, rfl⟩ := loadArgs_mem hx
    have := hn (f, t) h3
    by_cases he : f.name = t.name
    · rw [if_pos he]
      exact fun tx htx => print_nl (tok := []) htx (by simp) (fun h => by cases h)
    · rw [if_neg he]
      refine ⟨name_nl (this.resolve_left he), ?_⟩
      exact fun tx htx => print_nl (tok := []) htx (by simp) (fun h => by cases h)

theorem r_load {c : Comments} {lp m fs ts r fc o st} {ass : List (List LTok)} {l2 : Nat} {t1 : Bytes} {p : Pos} {m' : StringN} {fs' ts' : List IdentN} {e : Pos} {fc' : Bool}
    (ho : o ≤ 14) (hc : Clean st) (hr : r.comments = {}) (hmtok : m.token = [] ∨ Props.Quote.LexedToken m.token) (hmc : m.comments = {}) (hn : fs ≠ []) (hl : fs.length = ts.length)
    (hfc : ∀ n ∈ fs, n.comments = {}) (htc : ∀ n ∈ ts, n.comments = {}) (hnames : ∀ q ∈ fs.zip ts, q.1.name = q.2.name ∨ Name q.2.name)
    (hflat : fc = true → (10 : UInt8) ∉ m.token ∧ (m.triple = true → (10 : UInt8) ∉ m.value))
    (hI : All2 (LoadIt pr) (items ft pr b!"(" lp (.string m :: loadArgs fs ts) (some r) .load fc false (emit b!"load" st)) ([WS l2 t1 m.value m.triple] :: ass))
    (hp : p.line = line st) (he : e.line = line (seq ft pr b!"(" b!")" lp (.string m :: loadArgs fs ts) (some r) .load fc false (emit b!"load" st)))
    (hm' : StrAt l2 t1 m.value m.triple m') (hf : fs'.map (·.name) = fs.map (·.name)) (ht : ts'.map (·.name) = ts.map (·.name))
    (hf' : ∀ n ∈ fs', n.comments = {}) (ht' : ∀ n ∈ ts', n.comments = {})
    (hfc' : fc' = (line (emit b!"load" st) == line (seq ft pr b!"(" b!")" lp (.string m :: loadArgs fs ts) (some r) .load fc false (emit b!"load" st)))) :
    RQ ft (.load c lp m fs ts r fc) (.load {} p m' fs' ts' ⟨{}, e⟩ fc') o st (seq ft pr b!"(" b!")" lp (.string m :: loadArgs fs ts) (some r) .load fc false (emit b!"load" st)) := by
  have hcom : ∀ (m : StringN) (fs ts : List IdentN), m.comments = {} → (∀ n ∈ fs, n.comments = {}) → (∀ n ∈ ts, n.comments = {}) →
      ∀ x ∈ Expr.string m :: loadArgs fs ts, x.isNil = false ∧ x.comments = {} := by
    intro m fs ts h1 h2 h3 x hx
    rcases List.mem_cons.1 hx with rfl | hx
    · exact ⟨rfl, h1⟩
    · obtain ⟨f, t, h4, rfl⟩ := loadArgs_mem hx
      have h5 := List.of_mem_zip h4
      split
      · refine ⟨rfl, ?_⟩
        show { f.comments with before := t.comments.before } = _
        rw [h2 f h5.1, h3 t h5.2]
      · exact ⟨rfl, rfl⟩
  have hlen : ∀ (fs ts : List IdentN), fs ≠ [] → fs.length = ts.length → ¬ (loadArgs fs ts).length + 1 ≤ 1 := by
    intro fs ts h1 h2
    cases fs with
    | nil => exact absurd rfl h1
    | cons => cases ts with
      | nil => cases h2
      | cons => simp [loadArgs]
  have hUeq : ∀ (lv : Nat) (p : Pos) (m : StringN) (fs ts : List IdentN) (r : EndN) (fc : Bool), m.comments = {} → (∀ n ∈ fs, n.comments = {}) → (∀ n ∈ ts, n.comments = {}) →
      fs ≠ [] → fs.length = ts.length → r.comments = {} → useCompact ft lv p (.string m :: loadArgs fs ts) (some r) .load fc false = fc := by
    intro lv p m fs ts r fc h1 h2 h3 h4 h5 h6
    rw [useCompact_eq (by decide) (fun x hx => (hcom m fs ts h1 h2 h3 x hx).2) h6, if_neg (by rintro ⟨h, _⟩; cases h), if_neg (by rintro ⟨_, h⟩; exact h rfl)]
    cases fc
    · simp; rintro h; have := hlen fs ts h4 h5; rw [h] at this; simp at this
    · simp
  have hfn : fs' ≠ [] := by rintro rfl; simp at hf; exact hn hf
  have hlen' : fs'.length = ts'.length := by
    have h1 := congrArg List.length hf
    have h2 := congrArg List.length ht
    simp at h1 h2; omega
  have hU := hUeq (seqOpen .load b!"(" (emit b!"load" st)).level lp m fs ts r fc hmc hfc htc hn hl hr
  have hopen : line (seqOpen .load b!"(" (emit b!"load" st)) = line (emit b!"load" st) := by
    show line (emit b!"(" (emit b!"load" st)) = _
    rw [line_emit]; rfl
  have hload : line (emit b!"load" st) = line st := by rw [line_emit]; rfl
  have hWI : All2 (WI ft pr) (items ft pr b!"(" lp (.string m :: loadArgs fs ts) (some r) .load fc false (emit b!"load" st)) (.string m' :: loadArgs fs' ts') := by
    have hmap := items_map (ft := ft) (pr := pr) (o := b!"(") (start := lp) (l := .string m :: loadArgs fs ts) (e := some r) (m := .load) (fc := fc) (fm := false) (st := emit b!"load" st)
    generalize items ft pr b!"(" lp (.string m :: loadArgs fs ts) (some r) .load fc false (emit b!"load" st) = its at hI hmap
    cases hI with
    | cons it _ its _ ha hb =>
      simp only [List.map_cons, List.cons.injEq] at hmap
      refine .cons _ _ _ _ ?_ (load_names hl hf ht hf' ht' hmap.2 hb)
      obtain ⟨hca, ha⟩ := ha
      rw [hmap.1] at ha
      obtain ⟨t, h1, h2, h3⟩ := ha
      have h3' : t1 = t := by
        simp only [WS, List.cons.injEq, Prod.mk.injEq, ATok.mk.injEq] at h3
        exact h3.1.1.2.1
      subst h3'
      refine ⟨?_, fun m => by rw [hmap.1]; cases m <;> rfl, fun _ => rfl⟩
      rw [hmap.1, h2]
      refine string_settles hca hm'.comm ?_
      rw [hm'.tok, hm'.value, hm'.triple]
      exact print_again hmtok h1
  have hfceq : fc' = fc := by
    rw [hfc', seq_parts (fun x hx => (hcom m fs ts hmc hfc htc x hx).1), hU, line_close (by decide) (by decide)]
    unfold items at hI
    rw [hU] at hI
    cases hv : fc with
    | true =>
      rw [hv] at hI
      rw [if_pos rfl] at hI
      rw [if_pos rfl]
      unfold seqCompact
      rw [if_neg (by rintro ⟨_, h⟩; cases h), load_compact hI (flat_load (hflat hv).1 (hflat hv).2 hnames), hopen]
      simp
    | false =>
      rw [hv] at hI
      rw [if_neg (by simp)] at hI
      rw [if_neg (by simp)]
      have hcl : Clean { seqOpen .load b!"(" (emit b!"load" st) with margin := (seqOpen .load b!"(" (emit b!"load" st)).margin + (if Mode.load = .def_ then defIndentation else listIndentation) } := hc
      have := load_multi hcl hI
      unfold seqMulti
      dsimp only
      rw [seqEnd_clean hr, if_neg (by decide), line_newline (by exact this.1)]
      have h9 := this.2
      rw [line_margin, hopen] at h9
      rw [line_margin]
      have : line (emit b!"load" st) ≠ line (multiElems pr .load true (.string m :: loadArgs fs ts)
        { seqOpen .load b!"(" (emit b!"load" st) with margin := (seqOpen .load b!"(" (emit b!"load" st)).margin + (if Mode.load = .def_ then defIndentation else listIndentation) }) + 1 := by omega
      exact beq_eq_false_iff_ne.2 this
  have hU' := hUeq (seqOpen .load b!"(" (emit b!"load" st)).level p m' fs' ts' ⟨{}, e⟩ fc' hm'.comm hf' ht' hfn hlen' rfl
  refine RQ.of hc (Same.load _ _ _ _ _ _ _ _ _ _ _ _ _ _ hm'.value.symm hm'.triple.symm hf.symm ht.symm) rfl hp he ?_ (fun _ m => by cases m <;> rfl) (fun _ h => by cases h) (fun h => by cases h)
  obtain ⟨N, hN⟩ := seq_same (c := b!")") (m := .load) (start' := p) (e' := some ⟨{}, e⟩) (fc' := fc') (fm' := false) (fun x hx => (hcom m fs ts hmc hfc htc x hx).1) (fun _ => seqEnd_clean hr) (fun _ => seqEnd_clean rfl) hWI
    (by rw [hU, hU', hfceq])
  refine ⟨N, fun F hF => ?_⟩
  show withParen precSuffix o (fun st => seq ft (expr ft F) b!"(" b!")" p (.string m' :: loadArgs fs' ts') (some ⟨{}, e⟩) .load fc' false (emit b!"load" st)) st = _
  rw [withParen_le (prec := precSuffix) ho]
  exact hN F hF

end
end Verif.Again
