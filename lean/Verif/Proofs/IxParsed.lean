import Verif.Proofs.IxS
import Verif.Proofs.ParsedPlaces
import Verif.Props.InsidePlaces
/-
A parsed file with comments inside expressions can be printed and read back: like Proofs/ParsedPlaces.lean.
-/
namespace Verif.RoundI
open Verif Verif.Syntax Verif.Lexer Verif.Print Verif.Parser Verif.Grammar Verif.Comm Verif.Props.Comments Verif.Props.Grammar Verif.Round

theorem isCond_strip (x : Expr) : isCond (strip x) = isCond x := by cases x <;> simp [strip, isCond]
theorem isLambda_strip (x : Expr) : isLambda (strip x) = isLambda x := by cases x <;> simp [strip, isLambda]
theorem openEnd_strip (x : Expr) : openEnd (strip x) = openEnd x := by cases x <;> simp [strip, openEnd, isLambda_strip]
theorem isInt_strip (x : Expr) : isInt (strip x) = isInt x := by cases x <;> simp [strip, isInt]
theorem isNot_strip (x : Expr) : isNot (strip x) = isNot x := by cases x <;> simp [strip, isNot]
theorem isBin_strip (x : Expr) : isBin (strip x) = isBin x := by cases x <;> simp [strip, isBin]
theorem isPrimary_strip (x : Expr) : isPrimary (strip x) = isPrimary x := by cases x <;> simp [strip, isPrimary]
theorem isNil_strip (x : Expr) : (strip x).isNil = x.isNil := by cases x <;> simp [strip, Expr.isNil]
theorem openClause_strip (x : Expr) : openClause (strip x) = openClause x := by cases x <;> simp [strip, openClause, openEnd_strip]
theorem isIfClause_strip (x : Expr) : isIfClause (strip x) = isIfClause x := by cases x <;> simp [strip, isIfClause]
theorem forFirst_strip (l : List Expr) : forFirst (stripL l) = forFirst l := by
  cases l with
  | nil => rfl
  | cons x l => cases x <;> simp [strip, stripL, forFirst]
theorem clausesApart_strip : ∀ l : List Expr, clausesApart (stripL l) = clausesApart l
  | [] => rfl
  | [x] => rfl
  | x :: y :: l => by
    have := clausesApart_strip (y :: l)
    simp only [stripL] at this ⊢
    simp only [clausesApart, openClause_strip, isIfClause_strip, this]

theorem inL_iff {l : List Expr} : inL l = true ↔ ∀ x ∈ l, inE x = true := by
  induction l with
  | nil => simp [inL]
  | cons x l ih => simp [inL, ih]

theorem inSL_iff {l : List Expr} : inSL l = true ↔ ∀ x ∈ l, inS x = true := by
  induction l with
  | nil => simp [inSL]
  | cons x l ih => simp [inSL, ih]

theorem strip_mem {l : List Expr} {a : Expr} (h : a ∈ l) : strip a ∈ stripL l := by rw [stripL_eq]; exact List.mem_map_of_mem h

/-- all comments of the tree have a proper text -/
def CS (y : Expr) : Prop := ∀ c ∈ comE y, ComOK c

theorem CS.co {y : Expr} (h : CS y) : CO y.comments :=
  ⟨fun c hc => h c (comC_sub y c (by simp [comC, hc])), fun c hc => h c (comC_sub y c (by simp [comC, hc]))⟩

theorem noB_iff {x : Expr} : noB x = true ↔ NB x := by simp [noB, NB]
theorem noBS_iff {x : Expr} : noBS x = true ↔ Bare x := by simp [noBS, Bare]

theorem comI_sub {l : List IdentN} {n : IdentN} (h : n ∈ l) : ∀ c ∈ comC n.comments, c ∈ comI l := by
  induction l with
  | nil => cases h
  | cons m l ih =>
    intro c hc
    rcases List.mem_cons.1 h with rfl | h
    · simp [comI, hc]
    · simp [comI, ih h c hc]

/-- what is shown about a tree `x` without comments and a class of trees with comments -/
def Back (K : Expr → Prop) (x : Expr) : Prop := ∀ y, x = strip y → inE y = true → CS y → K y

theorem Back.list {K : Expr → Prop} {l : List Expr} (h : ∀ a ∈ stripL l, Back K a) (hi : inL l = true) (hc : ∀ c ∈ comL l, ComOK c) : ∀ a ∈ l, K a :=
  fun a ha => h _ (strip_mem ha) a rfl (inL_iff.1 hi a ha) (fun c hcc => hc c (comL_sub ha c hcc))

/-- the comments of a part -/
macro "part" hc:term : tactic => `(tactic| (intro c h; exact $hc c (by simp [comE, comC, h])))

set_option hygiene false in
/-- the cases of the induction over expressions, arguments, parameters, entries, clauses, variables and expression lists without comments -/
macro "back_cases" : tactic => `(tactic| (
  case ident =>
    intro n _ hn y e hy hc
    cases y <;> simp [strip] at e
    subst e
    exact .ident _ hc.co hn
  case int =>
    intro p t ht y e hy hc
    cases y <;> simp [strip] at e
    obtain ⟨rfl, rfl⟩ := e
    exact .int _ _ _ hc.co ht
  case float =>
    intro p t ht y e hy hc
    cases y <;> simp [strip] at e
    obtain ⟨rfl, rfl⟩ := e
    exact .float _ _ _ hc.co ht
  case string =>
    intro n _ hn y e hy hc
    cases y <;> simp [strip] at e
    subst e
    exact .string _ hc.co hn
  case dot =>
    intro x dp np name _ h1 h2 hn ih y e hy hc
    cases y <;> simp [strip] at e
    obtain ⟨rfl, rfl, rfl, rfl⟩ := e
    simp only [inE, Bool.and_eq_true] at hy
    exact .dot _ _ _ _ _ hc.co (.mk _ (ih _ rfl hy.2 (by part hc)) (noB_iff.1 hy.1)) (by rw [← isCond_strip]; exact h1) (by rw [← isInt_strip]; exact h2) hn
  case call =>
    intro x ls l e fc fm he _ h1 _ ih1 ih2 y e hy hc
    cases y <;> simp [strip] at e
    obtain ⟨rfl, rfl, rfl, rfl, rfl, rfl⟩ := e
    simp only [inE, Bool.and_eq_true] at hy
    exact .call _ _ _ _ _ _ _ hc.co (by part hc) (.mk _ (ih1 _ rfl hy.1.2 (by part hc)) (noB_iff.1 hy.1.1)) (by rw [← isCond_strip]; exact h1)
      (Back.list ih2 hy.2 (by part hc))
  case index =>
    intro x p z en _ h1 _ ih1 ih2 y e hy hc
    cases y <;> simp [strip] at e
    obtain ⟨rfl, rfl, rfl, rfl⟩ := e
    simp only [inE, Bool.and_eq_true] at hy
    exact .index _ _ _ _ _ hc.co (.mk _ (ih1 _ rfl hy.1.1.2 (by part hc)) (noB_iff.1 hy.1.1.1)) (by rw [← isCond_strip]; exact h1)
      (.mk _ (ih2 _ rfl hy.2 (by part hc)) (noB_iff.1 hy.1.2))
  case slice =>
    intro x p fr c1 to c2 st en _ h1 _ _ _ h2 ih1 ih2 ih3 ih4 y e hy hc
    cases y <;> simp [strip] at e
    obtain ⟨rfl, rfl, rfl, rfl, rfl, rfl, rfl, rfl⟩ := e
    simp only [inE, Bool.and_eq_true] at hy
    simp only [isNil_strip] at ih2 ih3 ih4 h2
    exact .slice _ _ _ _ _ _ _ _ _ hc.co (.mk _ (ih1 _ rfl hy.1.1.1.1.1.1.2 (by part hc)) (noB_iff.1 hy.1.1.1.1.1.1.1)) (by rw [← isCond_strip]; exact h1)
      (fun hn => .mk _ (ih2 hn _ rfl hy.1.1.1.1.2 (by part hc)) (noB_iff.1 hy.1.1.1.1.1.2)) (fun hn => .mk _ (ih3 hn _ rfl hy.1.1.2 (by part hc)) (noB_iff.1 hy.1.1.1.2))
      (fun hn => .mk _ (ih4 hn _ rfl hy.2 (by part hc)) (noB_iff.1 hy.1.2)) h2
  case list =>
    intro s l en fm _ _ ih y e hy hc
    cases y <;> simp [strip] at e
    obtain ⟨rfl, rfl, rfl, rfl⟩ := e
    exact .list _ _ _ _ _ hc.co (by part hc) (Back.list ih hy (by part hc))
  case set =>
    intro s l en fm _ hn _ ih y e hy hc
    cases y <;> simp [strip] at e
    obtain ⟨rfl, rfl, rfl, rfl⟩ := e
    exact .set _ _ _ _ _ hc.co (by part hc) (by rintro rfl; exact hn rfl) (Back.list ih hy (by part hc))
  case tuple =>
    intro s l en fc fm _ _ ih y e hy hc
    cases y <;> simp [strip] at e
    obtain ⟨rfl, rfl, rfl, rfl, rfl, rfl⟩ := e
    simp only [inE, Bool.and_eq_true] at hy
    exact .tuple _ _ _ _ _ _ hc.co (by part hc) (Back.list ih hy.1 (by part hc))
  case dict =>
    intro s l en fm _ _ ih y e hy hc
    cases y <;> simp [strip] at e
    obtain ⟨rfl, rfl, rfl, rfl⟩ := e
    exact .dict _ _ _ _ _ hc.co (by part hc) (Back.list ih hy (by part hc))
  case paren =>
    intro s x en fm _ _ ih y e hy hc
    cases y <;> simp [strip] at e
    obtain ⟨rfl, rfl, rfl, rfl⟩ := e
    exact .paren _ _ _ _ _ hc.co (by part hc) (ih _ rfl hy (by part hc))
  case listCompr =>
    intro p b cl fm en _ _ _ h1 h2 ih1 ih2 y e hy hc
    cases y <;> simp [strip] at e
    obtain ⟨rfl, rfl, rfl, rfl, rfl, rfl⟩ := e
    simp only [inE, Bool.and_eq_true, Bool.or_eq_true, List.all_eq_true, noB_iff, Bool.not_eq_true', List.isEmpty_eq_false_iff] at hy
    exact .listCompr _ _ _ _ _ _ hc.co (by part hc) (ih1 _ rfl hy.1.1 (by part hc)) (Back.list ih2 hy.1.2 (by part hc)) (by rw [← forFirst_strip]; exact h1)
      (by rw [← clausesApart_strip]; exact h2) (or_assoc.1 hy.2)
  case dictCompr =>
    intro p b cl fm en _ _ _ h1 h2 ih1 ih2 y e hy hc
    cases y <;> simp [strip] at e
    obtain ⟨rfl, rfl, rfl, rfl, rfl, rfl⟩ := e
    simp only [inE, Bool.and_eq_true, Bool.or_eq_true, List.all_eq_true, noB_iff, Bool.not_eq_true', List.isEmpty_eq_false_iff] at hy
    exact .dictCompr _ _ _ _ _ _ hc.co (by part hc) (ih1 _ rfl hy.1.1 (by part hc)) (Back.list ih2 hy.1.2 (by part hc)) (by rw [← forFirst_strip]; exact h1)
      (by rw [← clausesApart_strip]; exact h2) (or_assoc.1 hy.2)
  case unary =>
    intro p op x hop _ h1 ih y e hy hc
    cases y <;> simp [strip] at e
    obtain ⟨rfl, rfl, rfl⟩ := e
    simp only [inE, Bool.and_eq_true] at hy
    exact .unary _ _ _ _ hc.co hop (.mk _ (ih _ rfl hy.2 (by part hc)) (noB_iff.1 hy.1)) (by rw [← isCond_strip]; exact h1)
  case binary =>
    intro x p op lb z hop _ h1 _ h2 ih1 ih2 y e hy hc
    cases y <;> simp [strip] at e
    obtain ⟨rfl, rfl, rfl, rfl, rfl⟩ := e
    simp only [inE, Bool.and_eq_true] at hy
    exact .binary _ _ _ _ _ _ hc.co hop (.mk _ (ih1 _ rfl hy.1.1.2 (by part hc)) (noB_iff.1 hy.1.1.1)) (by rw [← isCond_strip]; exact h1)
      (.mk _ (ih2 _ rfl hy.2 (by part hc)) (noB_iff.1 hy.1.2)) (by rw [← isCond_strip]; exact h2)
  case is =>
    intro x p lb z _ h1 h2 _ h3 h4 ih1 ih2 y e hy hc
    cases y <;> simp [strip] at e
    obtain ⟨rfl, rfl, rfl, rfl, rfl⟩ := e
    simp only [inE, Bool.and_eq_true] at hy
    exact .is _ _ _ _ _ hc.co (.mk _ (ih1 _ rfl hy.1.1.2 (by part hc)) (noB_iff.1 hy.1.1.1)) (by rw [← isCond_strip]; exact h1) (by rw [← openEnd_strip]; exact h2)
      (.mk _ (ih2 _ rfl hy.2 (by part hc)) (noB_iff.1 hy.1.2)) (by rw [← isCond_strip]; exact h3) (by rw [← isNot_strip]; exact h4)
  case isNot =>
    intro x p lb z _ h1 h2 _ h3 h4 ih1 ih2 y e hy hc
    cases y <;> simp [strip] at e
    obtain ⟨rfl, rfl, rfl, rfl, rfl⟩ := e
    simp only [inE, Bool.and_eq_true] at hy
    exact .isNot _ _ _ _ _ hc.co (.mk _ (ih1 _ rfl hy.1.1.2 (by part hc)) (noB_iff.1 hy.1.1.1)) (by rw [← isCond_strip]; exact h1) (by rw [← openEnd_strip]; exact h2)
      (.mk _ (ih2 _ rfl hy.2 (by part hc)) (noB_iff.1 hy.1.2)) (by rw [← isCond_strip]; exact h3) (by rw [← isBin_strip]; exact h4)
  case lambda =>
    intro p ps b _ _ ih1 ih2 y e hy hc
    cases y <;> simp [strip] at e
    rename_i c' p' ps' b'
    obtain ⟨rfl, rfl, e3⟩ := e
    cases b' with
    | nil => simp [stripL] at e3
    | cons b1 bs =>
      cases bs with
      | cons => simp [stripL] at e3
      | nil =>
        simp only [stripL, List.cons.injEq, and_true] at e3
        subst e3
        simp only [inE, Bool.and_eq_true, List.all_eq_true, noB_iff, inL, and_true, List.mem_singleton, forall_eq] at hy
        exact .lambda _ _ _ _ hc.co (Back.list ih1 hy.1.1.2 (by part hc)) hy.1.1.1 (.mk _ (ih2 _ rfl hy.2 (fun c h => hc c (by simp [comE, comL, h]))) hy.1.2)
  case cond =>
    intro t i te el z _ _ _ h1 ih1 ih2 ih3 y e hy hc
    cases y <;> simp [strip] at e
    obtain ⟨rfl, rfl, rfl, rfl, rfl⟩ := e
    simp only [inE, Bool.and_eq_true] at hy
    exact .cond _ _ _ _ _ _ hc.co (.mk _ (ih1 _ rfl hy.1.1.1.1.2 (by part hc)) (noB_iff.1 hy.1.1.1.1.1)) (.mk _ (ih2 _ rfl hy.1.1.2 (by part hc)) (noB_iff.1 hy.1.1.1.2))
      (.mk _ (ih3 _ rfl hy.2 (by part hc)) (noB_iff.1 hy.1.2)) (by rw [← isCond_strip]; exact h1)
  case load =>
    intro p m fs ts r fc _ _ hm hne hlen _ _ hz y e hy hc
    cases y <;> simp [strip] at e
    rename_i c' p' m' fs' ts' r' fc'
    obtain ⟨rfl, rfl, rfl, rfl, rfl, rfl⟩ := e
    simp only [inE, Bool.and_eq_true, List.all_eq_true, List.isEmpty_iff, Bool.or_eq_true, beq_iff_eq] at hy
    refine .load _ _ _ _ _ _ _ hc.co (by part hc) ⟨by part hc, by part hc⟩ hm (by rintro rfl; exact hne rfl) (by simpa using hlen) ?_ ?_
    · intro n hn
      exact ⟨hy.1 n hn, fun c h => hc c (by have := comI_sub hn c (by simp [comC, h]); simp [comE, this])⟩
    · intro q hq
      have h2 : ∀ c ∈ comC q.2.comments, ComOK c := fun c h => hc c (by have := comI_sub (List.of_mem_zip hq).2 c h; simp [comE, this])
      have hz' := hz (stripI q.1, stripI q.2) (by rw [List.zip_map]; exact List.mem_map.2 ⟨q, hq, rfl⟩)
      by_cases heq : q.1.name = q.2.name
      · exact .inl ⟨heq, fun c h => h2 c (by simp [comC, h])⟩
      · exact .inr ⟨hz'.resolve_left heq, (hy.2 q hq).resolve_left heq, fun c h => h2 c (by simp [comC, h])⟩
  case aplain => intro x _ ih y e hy hc; exact .plain _ (ih y e hy hc)
  case anamed =>
    intro n p lb z _ hn _ ih y e hy hc
    cases y <;> simp [strip] at e
    rename_i c' x' p' op' lb' z'
    obtain ⟨e1, rfl, rfl, rfl, rfl⟩ := e
    cases x' <;> simp [strip] at e1
    subst e1
    simp only [inE, Bool.and_eq_true, noB_iff] at hy
    exact .named _ _ _ _ _ hc.co ⟨hy.1.1.1, by part hc⟩ hn (.mk _ (ih _ rfl hy.2 (by part hc)) hy.1.2)
  case astar =>
    intro p x _ ih y e hy hc
    cases y <;> simp [strip] at e
    obtain ⟨rfl, rfl, rfl⟩ := e
    simp only [inE, Bool.and_eq_true] at hy
    exact .star _ _ _ hc.co (.mk _ (ih _ rfl hy.2 (by part hc)) (noB_iff.1 hy.1))
  case astarStar =>
    intro p x _ ih y e hy hc
    cases y <;> simp [strip] at e
    obtain ⟨rfl, rfl, rfl⟩ := e
    simp only [inE, Bool.and_eq_true] at hy
    exact .starStar _ _ _ hc.co (.mk _ (ih _ rfl hy.2 (by part hc)) (noB_iff.1 hy.1))
  case pplain =>
    intro ty n _ hn y e hy hc
    cases y <;> simp [strip] at e
    subst e
    exact .plain _ _ hc.co hn
  case pdefault =>
    intro ty n p lb z _ hn _ ih y e hy hc
    cases y <;> simp [strip] at e
    rename_i c' x' p' op' lb' z'
    obtain ⟨e1, rfl, rfl, rfl, rfl⟩ := e
    cases x' <;> simp [strip] at e1
    subst e1
    simp only [inE, Bool.and_eq_true, noB_iff] at hy
    exact .default _ _ _ _ _ _ hc.co ⟨hy.1.1.1, by part hc⟩ hn (.mk _ (ih _ rfl hy.2 (by part hc)) hy.1.2)
  case pbare =>
    intro ty p y e hy hc
    cases y <;> simp [strip] at e
    obtain ⟨rfl, rfl, e3⟩ := e
    rename_i x'
    cases x' <;> simp [strip] at e3
    exact .bare _ _ _ hc.co
  case pstar =>
    intro ty p n _ hn y e hy hc
    cases y <;> simp [strip] at e
    obtain ⟨rfl, rfl, e3⟩ := e
    rename_i x'
    cases x' <;> simp [strip] at e3
    subst e3
    simp only [inE, Bool.and_eq_true, noB_iff] at hy
    exact .star _ _ _ _ hc.co ⟨hy.1, by part hc⟩ hn
  case pstarStar =>
    intro ty p n _ hn y e hy hc
    cases y <;> simp [strip] at e
    obtain ⟨rfl, rfl, e3⟩ := e
    rename_i x'
    cases x' <;> simp [strip] at e3
    subst e3
    simp only [inE, Bool.and_eq_true, noB_iff] at hy
    exact .starStar _ _ _ _ hc.co ⟨hy.1, by part hc⟩ hn
  case ptyped =>
    intro n t _ hn _ ih y e hy hc
    cases y <;> simp [strip] at e
    obtain ⟨rfl, rfl⟩ := e
    simp only [inE, Bool.and_eq_true, noB_iff, List.isEmpty_iff] at hy
    exact .typed _ _ _ hc.co ⟨hy.1.1, by part hc⟩ hn (.mk _ (ih _ rfl hy.2 (by part hc)) hy.1.2)
  case ptypedDefault =>
    intro n t p lb z _ hn _ _ ih1 ih2 y e hy hc
    cases y <;> simp [strip] at e
    rename_i c' x' p' op' lb' z'
    obtain ⟨e1, rfl, rfl, rfl, rfl⟩ := e
    cases x' <;> simp [strip] at e1
    obtain ⟨rfl, rfl⟩ := e1
    simp only [inE, Bool.and_eq_true, noB_iff, List.isEmpty_iff] at hy
    exact .typedDefault _ _ _ _ _ _ _ hc.co ⟨hy.1.1.1, by part hc⟩ ⟨hy.1.1.2.1.1, by part hc⟩ hn (.mk _ (ih1 _ rfl hy.1.1.2.2 (by part hc)) hy.1.1.2.1.2)
      (.mk _ (ih2 _ rfl hy.2 (by part hc)) hy.1.2)
  case ptypedStar =>
    intro p n t _ hn _ ih y e hy hc
    cases y <;> simp [strip] at e
    obtain ⟨rfl, rfl, e3⟩ := e
    rename_i x'
    cases x' <;> simp [strip] at e3
    obtain ⟨rfl, rfl⟩ := e3
    simp only [inE, Bool.and_eq_true, noB_iff, List.isEmpty_iff] at hy
    exact .typedStar _ _ _ _ _ hc.co ⟨hy.1, by part hc⟩ ⟨hy.2.1.1, by part hc⟩ hn (.mk _ (ih _ rfl hy.2.2 (by part hc)) hy.2.1.2)
  case ptypedStarStar =>
    intro p n t _ hn _ ih y e hy hc
    cases y <;> simp [strip] at e
    obtain ⟨rfl, rfl, e3⟩ := e
    rename_i x'
    cases x' <;> simp [strip] at e3
    obtain ⟨rfl, rfl⟩ := e3
    simp only [inE, Bool.and_eq_true, noB_iff, List.isEmpty_iff] at hy
    exact .typedStarStar _ _ _ _ _ hc.co ⟨hy.1, by part hc⟩ ⟨hy.2.1.1, by part hc⟩ hn (.mk _ (ih _ rfl hy.2.2 (by part hc)) hy.2.1.2)
  case kv =>
    intro k p v _ _ ih1 ih2 y e hy hc
    cases y <;> simp [strip] at e
    obtain ⟨rfl, rfl, rfl⟩ := e
    simp only [inE, Bool.and_eq_true, noB_iff] at hy
    exact .kv _ _ _ _ hc.co (.mk _ (ih1 _ rfl hy.1.1.2 (by part hc)) hy.1.1.1) (.mk _ (ih2 _ rfl hy.2 (by part hc)) hy.1.2)
  case for_ =>
    intro p v i x _ _ h1 ih1 ih2 y e hy hc
    cases y <;> simp [strip] at e
    obtain ⟨rfl, rfl, rfl, rfl⟩ := e
    simp only [inE, Bool.and_eq_true, noB_iff] at hy
    exact .for_ _ _ _ _ _ hc.co (.mk _ (ih1 _ rfl hy.1.1.2 (by part hc)) hy.1.1.1) (.mk _ (ih2 _ rfl hy.2 (by part hc)) hy.1.2) (by rw [← isCond_strip]; exact h1)
  case if_ =>
    intro p x _ h1 ih y e hy hc
    cases y <;> simp [strip] at e
    obtain ⟨rfl, rfl⟩ := e
    simp only [inE, Bool.and_eq_true, noB_iff] at hy
    exact .if_ _ _ _ hc.co (.mk _ (ih _ rfl hy.2 (by part hc)) hy.1) (by rw [← isCond_strip]; exact h1)
  case vone => intro x _ h1 ih y e hy hc; exact .one _ (ih y e hy hc) (by rw [← isPrimary_strip, ← e]; exact h1)
  case eone => intro x _ ih y e hy hc; exact .one _ (ih y e hy hc)
  case vtuple =>
    intro s x z l en fc fm _ _ h1 ih y e hy hc
    cases y <;> simp [strip] at e
    rename_i c' np' s' l' e' fc' fm'
    obtain ⟨rfl, rfl, e3, rfl, rfl, rfl⟩ := e
    rcases l' with _ | ⟨a, _ | ⟨b, l'⟩⟩
    · simp [stripL] at e3
    · simp [stripL] at e3
    simp only [inE, Bool.and_eq_true, Bool.not_true, Bool.false_or, List.isEmpty_iff, List.all_eq_true, noBS_iff] at hy
    rw [e3] at ih h1
    exact .tuple _ _ _ _ _ _ _ _ hc.co hy.2.1 (Back.list ih hy.1 (by part hc)) hy.2.2 (fun w hw => by rw [← isPrimary_strip]; exact h1 _ (strip_mem hw))
  case etuple =>
    intro s x z l en fc fm _ _ h1 ih y e hy hc
    cases y <;> simp [strip] at e
    rename_i c' np' s' l' e' fc' fm'
    obtain ⟨rfl, rfl, e3, rfl, rfl, rfl⟩ := e
    rcases l' with _ | ⟨a, _ | ⟨b, l'⟩⟩
    · simp [stripL] at e3
    · simp [stripL] at e3
    simp only [inE, Bool.and_eq_true, Bool.not_true, Bool.false_or, List.isEmpty_iff, List.all_eq_true, noBS_iff] at hy
    rw [e3] at ih
    have h1' : ∀ w ∈ stripL (b :: l'), isCond w = false := by
      have e4 : z :: l = stripL (b :: l') := by simpa [stripL] using (List.cons.inj e3).2
      rw [← e4]; exact h1
    exact .tuple _ _ _ _ _ _ _ _ hc.co hy.2.1 (Back.list ih hy.1 (by part hc)) hy.2.2 (fun w hw => by rw [← isCond_strip]; exact h1' _ (strip_mem hw))))

theorem back {x : Expr} (h : Round.Ok x) : Back Ok x := by
  refine Round.Ok.rec (motive_1 := fun x _ => Back Ok x) (motive_2 := fun x _ => Back OkArg x) (motive_3 := fun b x _ => Back (OkParam b) x) (motive_4 := fun x _ => Back OkKV x) (motive_5 := fun x _ => Back OkClause x) (motive_6 := fun x _ => Back OkVars x) (motive_7 := fun x _ => Back OkExpr x)
    ?ident ?int ?float ?string ?dot ?call ?index ?slice ?list ?set ?tuple ?dict ?paren ?listCompr ?dictCompr ?unary ?binary ?is ?isNot ?lambda ?cond ?load ?aplain ?anamed ?astar ?astarStar ?pplain ?pdefault ?pbare ?pstar ?pstarStar ?ptyped ?ptypedDefault ?ptypedStar ?ptypedStarStar ?kv ?for_ ?if_ ?vone ?vtuple ?eone ?etuple h
  back_cases

theorem backParam {b : Bool} {x : Expr} (h : Round.OkParam b x) : Back (OkParam b) x := by
  refine Round.OkParam.rec (motive_1 := fun x _ => Back Ok x) (motive_2 := fun x _ => Back OkArg x) (motive_3 := fun b x _ => Back (OkParam b) x) (motive_4 := fun x _ => Back OkKV x) (motive_5 := fun x _ => Back OkClause x) (motive_6 := fun x _ => Back OkVars x) (motive_7 := fun x _ => Back OkExpr x)
    ?ident ?int ?float ?string ?dot ?call ?index ?slice ?list ?set ?tuple ?dict ?paren ?listCompr ?dictCompr ?unary ?binary ?is ?isNot ?lambda ?cond ?load ?aplain ?anamed ?astar ?astarStar ?pplain ?pdefault ?pbare ?pstar ?pstarStar ?ptyped ?ptypedDefault ?ptypedStar ?ptypedStarStar ?kv ?for_ ?if_ ?vone ?vtuple ?eone ?etuple h
  back_cases

theorem backVars {x : Expr} (h : Round.OkVars x) : Back OkVars x := by
  refine Round.OkVars.rec (motive_1 := fun x _ => Back Ok x) (motive_2 := fun x _ => Back OkArg x) (motive_3 := fun b x _ => Back (OkParam b) x) (motive_4 := fun x _ => Back OkKV x) (motive_5 := fun x _ => Back OkClause x) (motive_6 := fun x _ => Back OkVars x) (motive_7 := fun x _ => Back OkExpr x)
    ?ident ?int ?float ?string ?dot ?call ?index ?slice ?list ?set ?tuple ?dict ?paren ?listCompr ?dictCompr ?unary ?binary ?is ?isNot ?lambda ?cond ?load ?aplain ?anamed ?astar ?astarStar ?pplain ?pdefault ?pbare ?pstar ?pstarStar ?ptyped ?ptypedDefault ?ptypedStar ?ptypedStarStar ?kv ?for_ ?if_ ?vone ?vtuple ?eone ?etuple h
  back_cases

theorem backExpr {x : Expr} (h : Round.OkExpr x) : Back OkExpr x := by
  refine Round.OkExpr.rec (motive_1 := fun x _ => Back Ok x) (motive_2 := fun x _ => Back OkArg x) (motive_3 := fun b x _ => Back (OkParam b) x) (motive_4 := fun x _ => Back OkKV x) (motive_5 := fun x _ => Back OkClause x) (motive_6 := fun x _ => Back OkVars x) (motive_7 := fun x _ => Back OkExpr x)
    ?ident ?int ?float ?string ?dot ?call ?index ?slice ?list ?set ?tuple ?dict ?paren ?listCompr ?dictCompr ?unary ?binary ?is ?isNot ?lambda ?cond ?load ?aplain ?anamed ?astar ?astarStar ?pplain ?pdefault ?pbare ?pstar ?pstarStar ?ptyped ?ptypedDefault ?ptypedStar ?ptypedStarStar ?kv ?for_ ?if_ ?vone ?vtuple ?eone ?etuple h
  back_cases

theorem backVarsN {x : Expr} (h : Round.OkVars (strip x)) (hb : noB x = true) (hi : inE x = true) (hc : CS x) : OkVarsN x :=
  .mk _ (backVars h x rfl hi hc) (noB_iff.1 hb)
theorem backExprN {x : Expr} (h : Round.OkExpr (strip x)) (hb : noB x = true) (hi : inE x = true) (hc : CS x) : OkExprN x :=
  .mk _ (backExpr h x rfl hi hc) (noB_iff.1 hb)

/-- simple statements -/
theorem backStmt {x : Expr} (h : Round.OkStmt x) (hb : isBlock x = false) : Back OkStmt x := by
  intro y e hy hc
  cases h with
  | expr x h => exact .expr _ (backExpr h y e hy hc)
  | assign x p op lb z hop h1 h2 =>
    cases y <;> simp [strip] at e
    obtain ⟨rfl, rfl, rfl, rfl, rfl⟩ := e
    simp only [inE, Bool.and_eq_true] at hy
    exact .assign _ _ _ _ _ _ hop (backExprN h1 hy.1.1.1 hy.1.1.2 (by part hc)) (backExprN h2 hy.1.2 hy.2 (by part hc))
  | aug x p op lb z hop h1 h2 =>
    cases y <;> simp [strip] at e
    obtain ⟨rfl, rfl, rfl, rfl, rfl⟩ := e
    simp only [inE, Bool.and_eq_true] at hy
    exact .aug _ _ _ _ _ _ hop (backExprN h1 hy.1.1.1 hy.1.1.2 (by part hc)) (backExprN h2 hy.1.2 hy.2 (by part hc))
  | return_ p x h =>
    cases y <;> simp [strip] at e
    obtain ⟨rfl, rfl⟩ := e
    simp only [inE, Bool.and_eq_true] at hy
    rw [isNil_strip] at h
    exact .return_ _ _ _ (fun hn => backExprN (h hn) hy.1 hy.2 (by part hc))
  | branch t p h =>
    cases y <;> simp [strip] at e
    obtain ⟨rfl, rfl⟩ := e
    exact .branch _ _ _ h
  | def_ => cases hb
  | for_ => cases hb
  | if_ => cases hb

theorem inS_simple {y : Expr} (hb : isBlock y = false) (hc : isCommentBlock y = false) (h : inS y = true) : inE y = true := by
  cases y <;> first | (cases hb; done) | (cases hc; done) | (simpa [inS] using h)

theorem okInside {x : Expr} (h : OkP x) : ∀ y, strip x = strip y → inS y = true → CS y → OkStmtC y := by
  induction h with
  | simple x hb hcb hok =>
    intro y e hy hc
    have hb' : isBlock y = false := by rw [← isBlock_strip, ← e, isBlock_strip]; exact hb
    have hcb' : isCommentBlock y = false := by rw [← isCommentBlock_strip, ← e, isCommentBlock_strip]; exact hcb
    refine .simple _ (backStmt hok (by rw [isBlock_set]; exact hb) y ?_ (inS_simple hb' hcb' hy) hc) (node_ok hc (comC_sub y))
    rw [← e, strip_root (okStmtFree hok (by rw [isBlock_set]; exact hb))]
  | block c p =>
    intro y e hy hc
    cases y <;> simp [strip] at e
    rename_i c' p'
    simp only [inS, Bool.and_eq_true, List.isEmpty_iff, Bool.not_eq_true', List.isEmpty_eq_false_iff] at hy
    exact .block _ _ hy.1.1 hy.1.2 hy.2 (fun a ha => hc a (comC_sub _ a (by simp [comC, Expr.comments, ha])))
  | def_ c p name ps body cp fc fm ty h1 h2 h3 h4 h5 ih =>
    intro y e hy hc
    cases y <;> simp [strip] at e
    rename_i c' p' name' ps' body' cp' fc' fm' ty'
    simp only [inS, Bool.and_eq_true] at hy
    obtain ⟨rfl, rfl, e1, e2, rfl, rfl, rfl, e3⟩ := e
    rw [stripL_id (comL_nil.2 (fun a ha => okParamFree (h2 a ha)))] at e1
    rw [strip_id _ (com_opt (fun hn => okFree (h3 hn)))] at e3
    refine .def_ _ _ _ _ _ _ _ _ _ (node_ok hc (comC_sub (.defS c' _ _ _ _ _ _ _ _))) h1 ?_ ?_ (stmtsOf_strip e2 h4) ?_
    · exact Back.list (fun a ha => backParam (h2 a (by rw [e1]; exact ha))) hy.1.1.1 (by part hc)
    · intro hn
      exact .mk _ (back (h3 (by rw [e3, isNil_strip]; exact hn)) _ e3 hy.1.2 (by part hc)) (noB_iff.1 hy.1.1.2)
    · intro s hs
      obtain ⟨w, hw, ew⟩ := strip_list e2 s hs
      exact ih w hw s ew (inSL_iff.1 hy.2 s hs) (fun a ha => hc a (by simp [comE, comL_sub hs a ha]))
  | for_ c p v x body h1 h2 h3 h4 ih =>
    intro y e hy hc
    cases y <;> simp [strip] at e
    rename_i c' p' v' x' body'
    simp only [inS, Bool.and_eq_true] at hy
    obtain ⟨rfl, e1, e2, e3⟩ := e
    rw [strip_id _ (okVarsFree h1)] at e1
    rw [strip_id _ (okExprFree h2)] at e2
    subst e1 e2
    refine .for_ _ _ _ _ _ (node_ok hc (comC_sub (.forS c' _ _ _ _))) (backVarsN h1 hy.1.1.1.1 hy.1.1.1.2 (by part hc)) (backExprN h2 hy.1.1.2 hy.1.2 (by part hc))
      (stmtsOf_strip e3 h3) ?_
    intro s hs
    obtain ⟨w, hw, ew⟩ := strip_list e3 s hs
    exact ih w hw s ew (inSL_iff.1 hy.2 s hs) (fun a ha => hc a (by simp [comE, comL_sub hs a ha]))
  | if_ c p x body ep els h1 h2 h3 h4 h5 ih1 ih2 =>
    intro y e hy hc
    cases y <;> simp [strip] at e
    rename_i c' p' x' body' ep' els'
    simp only [inS, Bool.and_eq_true] at hy
    obtain ⟨rfl, e1, e2, e3, e4⟩ := e
    rw [strip_id _ (okExprFree h1)] at e1
    subst e1
    refine .if_ _ _ _ _ _ _ (node_ok hc (comC_sub (.ifS c' _ _ _ _ _))) (backExprN h1 hy.1.1.1 hy.1.1.2 (by part hc))
      (fun a ha => hc a (by simp [comE, comC, ha])) (stmtsOf_strip e2 h2) ?_ ?_ ?_
    · intro s hs
      obtain ⟨w, hw, ew⟩ := strip_list e2 s hs
      exact ih1 w hw s ew (inSL_iff.1 hy.1.2 s hs) (fun a ha => hc a (by simp [comE, comL_sub hs a ha]))
    · intro hne
      refine stmtsOf_strip e4 (h4 ?_)
      rintro rfl
      cases els' with
      | nil => exact hne rfl
      | cons => simp [stripL] at e4
    · intro s hs
      obtain ⟨w, hw, ew⟩ := strip_list e4 s hs
      exact ih2 w hw s ew (inSL_iff.1 hy.2 s hs) (fun a ha => hc a (by simp [comE, comL_sub hs a ha]))

/-- **A file that parses, has comments inside expressions and does not end with a backslash.** -/
theorem parsed_inside {fuel : Nat} {ft : FileType} {data : Bytes} {f : File} (h : parseFile fuel ft data = some f) (hb : data.getLast? ≠ some 92)
    (hp : ∀ s ∈ f.stmts, inS s = true) (hne : ∀ c ∈ comF f, c.token ≠ []) : ComsOK f.comments.before ∧ ∀ s ∈ f.stmts, OkStmtC s := by
  have hcom : ∀ c ∈ comF f, ComOK c := by
    intro c hc
    obtain ⟨ts, cs, h1, h2⟩ := C46_file fuel ft data f h
    have hm : c ∈ (comF f).filter (fun c => !c.token.isEmpty) := List.mem_filter.2 ⟨hc, by simpa [List.isEmpty_iff] using hne c hc⟩
    obtain ⟨t1, t2⟩ := tiled_comOK h1
    rcases List.mem_append.1 (h2.mem_iff.1 hm) with hm | hm
    · exact t2 c hm
    · exact t1 c hm
  refine ⟨fun c hc => hcom c (by simp [comF, comC, hc]), fun s hs => ?_⟩
  have hs' := comL_sub hs
  refine (?_ : ∃ x, OkP x ∧ strip x = strip s).elim fun x hx => okInside hx.1 s hx.2 (hp s hs) (fun c hc => hcom c (by unfold comF; exact List.mem_append_right _ (hs' c hc)))
  unfold parseFile at h
  cases ht : tokens data with
  | ok ts st =>
    rw [ht] at h
    dsimp only at h
    cases hr : run fuel (initCfg ts) with
    | none => rw [hr] at h; cases h
    | some l =>
      rw [hr] at h
      cases h
      obtain ⟨v, hv, rfl⟩ := (C62_iff data ts st l ht).1 ⟨fuel, hr⟩
      obtain ⟨cs, h1, h2⟩ := Props.Lexer.C48_tiles data ts st ht
      have hcol : (([] : Bytes) ++ (data ++ [10])).head? ≠ some 58 := by
        intro e
        obtain ⟨t, r, rfl, hk⟩ := tiled_colon h1 e
        rw [colon_first t r hk] at hr
        cases hr
      have hT : ToksC ts := ⟨tokens_good ht, tiled_pos h1 hcol, fun a t u b e k => tokens_block ht hb a t u b e k⟩
      have hok : ∀ s ∈ v.exprs, OkP s := parsedC_induct parsedC_steps hv hT
      obtain ⟨x, hx, e⟩ := strip_list (strip_assign v.exprs st.suffixComments st.lineComments).symm s hs
      exact ⟨x, hok x hx, e⟩
  | _ => rw [ht] at h; cases h

end Verif.RoundI
