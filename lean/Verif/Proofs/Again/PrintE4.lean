import Verif.Proofs.Again.PrintE3
/-
What the printer writes for an expression is read as an expression that is printed in the same way: all expressions.
-/
namespace Verif.Again
open Verif Verif.Syntax Verif.Lexer Verif.Print Verif.Grammar Verif.Parser Verif.Round

theorem float_nl {t : Bytes} (h : Float t) : nl t = 0 := by
  cases h with
  | both a c ha hc => rw [nl_append, nl_append, int_nl ha, int_nl hc]; rfl
  | left a ha => rw [nl_append, int_nl ha]; rfl
  | right c hc => rw [nl_append, int_nl hc]; rfl

theorem p_float {t : Bytes} {b : Bool} {ln : Nat} {R : Expr → Prop} (h : Float t) (hR : ∀ p' : Pos, p'.line = ln → R (.literal {} p' t)) : Y b ln .primary (OE R) t := by
  have d46 : StartOK [46] := ⟨46, [], rfl, by unfold Start; decide⟩
  cases h with
  | both a c ha hc =>
    obtain ⟨a1, a2⟩ := int_text ha
    obtain ⟨c1, c2⟩ := int_text hc
    refine ⟨(a1.app).app, c2.app, _, fun x hx => ?_, g_float2 (l1 := ln) (l2 := ln) hR⟩
    have := Lx.appT (s2 := 46 :: c) (c := x) (t_int (b := b) (ln := ln) ha) follow46 (lx_dot (t_int hc x hx))
    rw [int_nl ha] at this
    simpa using this
  | left a ha =>
    obtain ⟨a1, a2⟩ := int_text ha
    refine ⟨a1.app, EndOK.app (EndOK.single (by decide)), _, fun x hx => ?_, g_float1 (l1 := ln) hR⟩
    have := Lx.appT (s2 := [46]) (c := x) (t_int (b := b) (ln := ln) ha) follow46 (lx_dot (Lx.nil b _ x))
    rw [int_nl ha] at this
    exact this
  | right c hc =>
    obtain ⟨c1, c2⟩ := int_text hc
    exact ⟨d46.app, c2.app, _, fun x hx => lx_dot (t_int hc x hx), g_float0 hR⟩

theorem string_adds' {tok v : Bytes} {tr : Bool} {st : St} {P : Bytes → Prop} (htok : tok = [] ∨ Props.Quote.LexedToken tok) (hc : Clean st)
    (h : ∀ s, Quote.printString tok v tr = some s → Props.Quote.GoodLiteral s v tr → P s) :
    Adds st (match Quote.printString tok v tr with | some s => emit s st | none => { st with bad := true }) P := by
  cases hp : Quote.printString tok v tr with
  | none => exact Adds.bad hc rfl
  | some s => exact Adds.emit0 hc (h s hp (Props.Quote.C03_print_string _ _ _ _ htok hp))

section
variable {ft : FileType} {pr : Pr} (H : PrOK ft pr)
include H

theorem body_ok {f : Nat} {e : Expr} {o : Nat} {b : Bool} {st : St} (hft : ft ≠ .module) (he : Ok e) (hfo : Fo e) (ho : o ≤ 14) (hc : Clean st) (hd : Dep b st e) :
    Adds st (exprBody ft pr f e o st) (Y b (line st) (fits e o) (OE (fun y => RQ ft e y o st (exprBody ft pr f e o st)))) := by
  have sub : ∀ {x : Expr}, (tupleTight e = true → tupleTight x = true) → (tight e = true → tight x = true) → Dep b st x := fun h1 h2 => dep_sub hd rfl h1 h2
  cases he with
  | ident n hn hname =>
    obtain ⟨n1, n2⟩ := name_text hname
    exact Adds.emit0 hc ⟨n1, n2, _, t_name hname, g_name (fun n' h => r_ident hc h.name h.comm (name_nl hname) h.pos)⟩
  | int p t ht =>
    obtain ⟨n1, n2⟩ := int_text ht
    have : fits (.literal {} p t) o = .primaryInt := by unfold fits; simp only [int_no_dot ht]; rfl
    rw [this]
    exact Adds.emit0 hc ⟨n1, n2, _, t_int ht, g_int (fun p' h => r_literal hc (int_nl ht) h)⟩
  | float p t ht =>
    have : fits (.literal {} p t) o = .primary := by unfold fits; simp only [float_dot ht]; rfl
    rw [this]
    exact Adds.emit0 hc (p_float ht (fun p' h => r_literal hc (float_nl ht) h))
  | string n hn htok =>
    refine string_adds' htok hc (fun s hp hs => ⟨(good_text hs).1, (good_text hs).2, _, t_str hs, g_str (fun n' h => ?_)⟩)
    have hbody : exprBody ft pr f (.string n) o st = emit s st := by unfold exprBody; simp only [hp]
    rw [hbody]
    exact r_string hc (print_again htok hp) h.comm h.tok h.value h.triple h.pos h.stop
  | dot x dp np name hx hcx hix hn =>
    unfold exprBody
    dsimp only
    rw [withParen_no (p := precSuffix) ho]
    exact p_dot H ho hx (fo_dot hfo) hcx hix hn hc hd rfl
  | call x ls l en fc fm hen hx hcx hl =>
    obtain ⟨f1, f2, f3⟩ := fo_call hfo
    have hcall : exprBody ft pr f (.call {} x ls l en fc fm) o st = withParen precSuffix o (fun st => seq ft pr b!"(" b!")" ls l (some en) .call fc fm (pr x precSuffix st)) st := by
      unfold exprBody
      dsimp only
      rw [show decide (ft = FileType.module) = false by simpa using hft, Bool.false_and, if_neg (by simp)]
    rw [hcall, withParen_no (p := precSuffix) ho]
    exact p_call H hft ho hen hx f2 hcx hl f3 f1 hc (sub (fun h => h) (fun h => h))
  | index x p y en hx hcx hy =>
    obtain ⟨f1, f2⟩ := fo_index hfo
    unfold exprBody
    dsimp only
    rw [withParen_no (p := precSuffix) ho]
    exact p_index H ho hx f1 hcx hy f2 hc (sub (fun h => h) (fun h => h))
  | slice x p fr c1 to c2 sp en hx hcx hfr hto hsp hc2 =>
    obtain ⟨f1, f2, f3, f4⟩ := fo_slice hfo
    unfold exprBody
    dsimp only
    rw [withParen_no (p := precSuffix) ho]
    exact p_slice H ho hx f1 hcx hfr f2 hto f3 hsp f4 hc2 hc (sub (fun h => h) (fun h => h)) rfl rfl rfl
  | list s l en fm hen hl => exact p_list H hen hl (fo_list hfo) hc
  | set s l en fm hen hn hl => exact p_set H hen hn hl (fo_set hfo) hc
  | tuple s l en fc fm hen hl => exact p_tuple H hen hl (fo_tuple hfo).2 ((fo_tuple hfo).1 rfl) hc
  | dict s l en fm hen hl => exact p_dict H hen hl (fo_dict hfo) hc
  | paren s x en fm hen hx => exact p_paren H hen hx (fo_paren hfo) hc
  | listCompr p bd cl fm en hen hb hcl hf ha => exact p_listCompr H hen hb (fo_compr hfo).1 (fun a h => ⟨hcl a h, (fo_compr hfo).2 a h⟩) hf ha hc
  | dictCompr p bd cl fm en hen hb hcl hf ha => exact p_dictCompr H hen hb (fo_compr hfo).1 (fun a h => ⟨hcl a h, (fo_compr hfo).2 a h⟩) hf ha hc
  | unary p op x hop hx hcx => exact p_unary H hop hx (fo_unary hfo) hcx hc hd
  | binary x p op lb y hop hx hcx hy hcy => exact p_binary H hop hx (fo_binary hfo).1 hcx hy (fo_binary hfo).2 hcy hc hd (fun st => rfl)
  | is x p lb y hx hcx hox hy hcy hny => exact p_is H (by decide) hx (fo_binary hfo).1 hcx hox hy (fo_binary hfo).2 hcy (.inl ⟨rfl, hny⟩) hc hd (fun st => rfl)
  | isNot x p lb y hx hcx hox hy hcy hby => exact p_is H (by decide) hx (fo_binary hfo).1 hcx hox hy (fo_binary hfo).2 hcy (.inr ⟨rfl, hby⟩) hc hd (fun st => rfl)
  | lambda p ps bd hps hb => exact p_lambda H (fun a h => ⟨hps a h, (fo_lambda hfo).1 a h⟩) hb ((fo_lambda hfo).2 bd (by simp)) hc hd (fun st => rfl)
  | cond t i te el e ht hte he hce =>
    obtain ⟨f1, f2, f3⟩ := fo_cond hfo
    unfold exprBody
    dsimp only
    rw [withParen_no (p := precSuffix) ho]
    exact p_cond H ho ht f1 hte f2 he f3 hce hc hd rfl rfl
  | load p m fs ts r fc hr hm hmt hn hlen h1 h2 h3 =>
    unfold exprBody
    dsimp only
    rw [withParen_no (p := precSuffix) ho]
    exact p_load H ho hr hm hmt hn hlen h1 h2 h3 (every_load hfo) hc

/-! ## Arguments, parameters, clauses -/

theorem body_typed {n : IdentN} {t : Expr} {f o : Nat} {b : Bool} {st : St} (hn : n.comments = {}) (hname : Name n.name) (ht : Ok t) (hft : Fo t) (hc : Clean st) (hd : Dep b st (.typedIdent {} n t)) :
    Adds st (exprBody ft pr f (.typedIdent {} n t) o st) (YP b (line st) (TypedG ft n t o st (exprBody ft pr f (.typedIdent {} n t) o st))) := by
  show Adds st (pr t 0 (emit b!": " (pr (.ident n) 0 st))) (YP b (line st) (TypedG ft n t o st (pr t 0 (emit b!": " (pr (.ident n) 0 st)))))
  have h1 := (H.ident n 0 st hn hc).emit (t := b!": ") (R := fun s => s = n.name ++ b!": " ∧ pr (.ident n) 0 st = emit n.name st) (by rintro _ ⟨rfl, h⟩; exact ⟨rfl, h⟩)
  have k : (emit b!": " (pr (.ident n) 0 st)).depth = st.depth := (H.keep _ _ _).1
  refine h1.trans (fun hc' => H.any ht hft (Nat.zero_le 2) hc' (dep_sub hd k (fun h => h) (fun h => h))) ?_
  rintro _ s2 ⟨rfl, hid⟩ ⟨q1, q2, as, q3, q4⟩
  rw [hid] at q3 q4 ⊢
  have hl : line (emit b!": " (emit n.name st)) = line st := by rw [line_emit0 (by decide), line_emit0 (name_nl hname)]
  rw [hl] at q3
  obtain ⟨n1, n2⟩ := name_text hname
  refine ⟨(n1.app).app, q2.app, W (line st) K.ident n.name :: (W (line st) 58 b!":" :: as), fun c hc => ?_, line st, as, rfl, ?_⟩
  · have := Lx.appT (s2 := 58 :: 32 :: s2) (c := c) (t_name (b := b) (ln := line st) hname) follow58 (lx_colon (Lx.sp ((q3 c hc).at (by rw [name_nl hname]; rfl))))
    rw [name_nl hname] at this
    simpa using this
  · refine q4.mono (fun v q n' h => ?_)
    exact r_typed hc h.name h.comm h.pos rfl q

theorem YP_name {n : IdentN} {o : Nat} {b : Bool} {st : St} (hn : n.comments = {}) (hname : Name n.name) (hc : Clean st) :
    Adds st (pr (.ident n) o st) (YP b (line st) (fun as => as = [W (line st) K.ident n.name] ∧ ∀ n', IdAt (line st) n.name n' → RQ ft (.ident n) (.ident n') o st (pr (.ident n) o st))) :=
  (H.ident n o st hn hc).mono (by
    rintro _ ⟨rfl, e⟩
    refine ⟨(name_text hname).1, (name_text hname).2, _, t_name hname, rfl, fun n' h => ?_⟩
    rw [e]
    exact r_ident hc h.name h.comm (name_nl hname) h.pos)

/-- `x = y` -/
theorem p_assign {x p op lb y} {b : Bool} {st : St} {f : Nat} {P1 P2 : St → List LTok → Prop} (hop : op ∈ assignOps) (hc : Clean st) (hd : Dep b st (.assign {} x p op lb y))
    (hx : ∀ st1, Clean st1 → Dep b st1 x → Adds st1 (pr x 1 st1) (YP b (line st1) (P1 st1))) (hy : ∀ st1, Clean st1 → Dep b st1 y → Adds st1 (pr y 2 st1) (YP b (line st1) (P2 st1))) :
    Adds st (exprBody ft pr f (.assign {} x p op lb y) 0 st) (YP b (line st) (fun as => ∃ as1 as2 k X Y, as = as1 ++ (opToks k op ++ as2) ∧ P1 X as1 ∧ P2 Y as2 ∧ line X = line st ∧
      ∀ x' y' p', RQ ft x x' 1 X (pr x 1 X) → RQ ft y y' 2 Y (pr y 2 Y) →
        RQ ft (.assign {} x p op lb y) (.assign {} x' p' op (decide (x'.endPos.line < y'.startPos.line)) y') 0 st (exprBody ft pr f (.assign {} x p op lb y) 0 st))) := by
  obtain ⟨d1, d2, d3⟩ := assign_dep hd
  have hb : exprBody ft pr f (.assign {} x p op lb y) 0 st = { pr y 2 (binY lb op (pr x 1 (binX lb (indent st + listIndentation) st))) with margin := st.margin } := rfl
  rw [hb]
  obtain ⟨hcx', hA⟩ := infix_spec (px := 1) (py := 2) (P1 := P1 (binX lb (indent st + listIndentation) st)) (P2 := P2 (binY lb op (pr x 1 (binX lb (indent st + listIndentation) st)))) (b := b) hc H.keep (by simp [allOps, hop])
    (fun hc1 he => (hx _ hc1 (d2 _ he)).mono (fun _ q => q.at (line_binX ..))) (fun _ hc1 he => hy _ hc1 (d3 _ he)) d1
  refine hA.mono ?_
  rintro s ⟨q1, q2, as1, as2, k, q3, q4, q5⟩
  refine ⟨q1, q2, _, q3, as1, as2, k, _, _, rfl, q4, q5, line_binX .., fun x' y' p' hx' hy' => ?_⟩
  exact r_assign (by omega) (op_nl (by simp [allOps, hop])) hc rfl hcx' rfl hx' hy'

omit H in
theorem opToks_eq {ln : Nat} : opToks ln b!"=" = [W ln 61 b!"="] := rfl

omit H in
/-- a star before an operand -/
theorem p_star {p x o} {b : Bool} {st : St} {f : Nat} {P : St → List LTok → Prop} {op : Bytes} (hop : op = b!"*" ∨ op = b!"**") (ho : o ≤ 13) (hn : x.isNil = false) (hc : Clean st)
    (hx : ∀ st1, Clean st1 → st1.depth = st.depth → Adds st1 (pr x 14 st1) (YP b (line st1) (P st1))) :
    Adds st (exprBody ft pr f (.unary {} p op x) o st) (fun s => EndOK s ∧ ∃ as X, T b (line st) s (W (line st) (if op = b!"*" then 42 else K.starStar) op :: as) ∧ P X as ∧ line X = line st ∧
      ∀ x' p', p'.line = line st → RQ ft x x' 14 X (pr x 14 X) → RQ ft (.unary {} p op x) (.unary {} p' op x') o st (exprBody ft pr f (.unary {} p op x) o st)) := by
  have hne : op ≠ b!"not" := by rcases hop with rfl | rfl <;> decide
  have hnl : nl op = 0 := by rcases hop with rfl | rfl <;> decide
  have hu : unText op = op := by unfold unText; rw [if_neg hne]
  have hb : exprBody ft pr f (.unary {} p op x) o st = pr x 14 (emit op st) := by
    unfold exprBody
    dsimp only
    rw [withParen_no (p := precUnary) ho]
    rw [hn]
    simp only [if_neg hne, Bool.false_eq_true, if_false]
    rfl
  rw [hb]
  refine (Adds.emit0 (R := (· = op)) hc rfl).trans (fun hc' => hx _ hc' rfl) ?_
  have hl : line (emit op st) = line st := line_emit0 hnl st
  rintro s1 s2 hs1 ⟨q1, q2, as, q3, q4⟩
  rw [hs1]
  rw [hl] at q3
  refine ⟨q2.app, as, emit op st, fun c hc => ?_, q4, hl, fun x' p' hp' hx' => ?_⟩
  · obtain ⟨y, r, rfl, hy⟩ := q1
    rcases hop with h | h
    · subst h
      exact Lx.pre0 (tok_star (start_ne hy).1 (start_ne hy).2.1) (by decide) (by decide) (q3 c hc)
    · subst h
      exact Lx.pre0 (tok_starStar _) (by decide) (by decide) (q3 c hc)
  · have := r_unary (c := {}) (p := p) (op := op) (p' := p') ho hc hn (by rw [hu]; exact hx') hp'
    rw [hu] at this
    exact this

end
end Verif.Again
