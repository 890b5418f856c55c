import Verif.Model.ApiWarn
import Verif.Props.Walk
/-
C82: outdated parameters of attribute definitions. C83: keyword arguments of builtins that must be positional.
-/
namespace Verif.Props.ApiWarn
open Verif Verif.Syntax Verif.Walk Verif.ApiWarn

/-! ## Specification of C82 -/

/-- the argument `name = v` (or `name += v`, …) -/
inductive Keyword (name : Bytes) (v : Expr) : Expr → Prop
  | mk (c ci pi p op lb) : Keyword name v (.assign c (.ident ⟨ci, pi, name⟩) p op lb v)

/-- `new` is the argument `old` with another name and value, everything else (comments, position) kept -/
inductive Renamed (name : Bytes) (v : Expr) : Expr → Expr → Prop
  | mk (c ci pi p op lb n w) : Renamed name v (.assign c (.ident ⟨ci, pi, n⟩) p op lb w) (.assign c (.ident ⟨ci, pi, name⟩) p op lb v)

/-- the first argument with this name is `name = v`, between `a` and `b` -/
structure First (name : Bytes) (l a : List Expr) (e : Expr) (v : Expr) (b : List Expr) : Prop where
  split : l = a ++ e :: b
  is : Keyword name v e
  first : ∀ x ∈ a, ∀ w, ¬ Keyword name w x

/-- a call `attr.xxx(args)`, and the same call with other arguments -/
inductive AttrCall : Expr → List Expr → (List Expr → Expr) → Prop
  | mk (c c' ci pi d q n p l t fc fm) : AttrCall (.call c (.dot c' (.ident ⟨ci, pi, b!"attr"⟩) d q n) p l t fc fm) l
      fun l' => .call c (.dot c' (.ident ⟨ci, pi, b!"attr"⟩) d q n) p l' t fc fm

/-- a way to give expressions truth values that knows about parentheses, `not`, `True` and `False` -/
structure Coherent (τ : Expr → Bool) : Prop where
  paren : ∀ c p x e fm, τ (.paren c p x e fm) = τ x
  not : ∀ c p x, τ (.unary c p b!"not" x) = !τ x
  true : ∀ c p, τ (.ident ⟨c, p, b!"True"⟩) = true
  false : ∀ c p, τ (.ident ⟨c, p, b!"False"⟩) = false

/-- a variable, possibly in parentheses -/
inductive Variable : Expr → Prop
  | ident (i : IdentN) : i.name ≠ b!"True" → i.name ≠ b!"False" → Variable (.ident i)
  | paren (c p x e fm) : Variable x → Variable (.paren c p x e fm)

/-! ## Proofs -/

theorem getParam_none {name : Bytes} {l : List Expr} : getParam name l = none ↔ ∀ x ∈ l, ∀ w, ¬ Keyword name w x := by
  induction l using getParam.induct (name := name) with
  | case1 => simp [getParam]
  | case2 c i p op lb rhs l h =>
    rw [getParam, if_pos h]
    constructor
    · intro h; cases h
    · intro h'; exact absurd (show Keyword name rhs (.assign c (.ident i) p op lb rhs) by cases i; cases h; exact .mk _ _ _ _ _ _) (h' _ (by simp) _)
  | case3 c i p op lb rhs l h ih =>
    rw [getParam, if_neg h, Option.map_eq_none_iff, ih]
    constructor
    · intro h' x hx w hk
      rcases List.mem_cons.1 hx with rfl | hx
      · cases hk; exact h rfl
      · exact h' x hx w hk
    · intro h' x hx; exact h' x (by simp [hx])
  | case4 x l hne ih =>
    rw [getParam, Option.map_eq_none_iff, ih]
    · constructor
      · intro h' y hy w hk
        rcases List.mem_cons.1 hy with rfl | hy
        · cases hk; exact hne _ _ _ _ _ _ rfl
        · exact h' y hy w hk
      · intro h' y hy; exact h' y (by simp [hy])
    · exact hne

theorem getParam_some {name : Bytes} {l : List Expr} {i : Nat} {q : Param} (h : getParam name l = some (i, q)) :
    ∃ a b, First name l a (.assign q.c (.ident q.id) q.p q.op q.lb q.rhs) q.rhs b ∧ i = a.length ∧ q.id.name = name := by
  induction l using getParam.induct (name := name) generalizing i with
  | case1 => cases h
  | case2 c j p op lb rhs l hn =>
    rw [getParam, if_pos hn] at h
    cases h
    refine ⟨[], l, ⟨rfl, ?_, nofun⟩, rfl, hn⟩
    cases j; cases hn; exact .mk _ _ _ _ _ _
  | case3 c j p op lb rhs l hn ih =>
    rw [getParam, if_neg hn, Option.map_eq_some_iff] at h
    obtain ⟨⟨k, q'⟩, h1, h2⟩ := h
    cases h2
    obtain ⟨a, b, hf, rfl, hq⟩ := ih h1
    refine ⟨_ :: a, b, ⟨by rw [hf.split]; rfl, hf.is, ?_⟩, rfl, hq⟩
    intro x hx w hk
    rcases List.mem_cons.1 hx with rfl | hx
    · cases hk; exact hn rfl
    · exact hf.first x hx w hk
  | case4 x l hne ih =>
    rw [getParam] at h
    · rw [Option.map_eq_some_iff] at h
      obtain ⟨⟨k, q'⟩, h1, h2⟩ := h
      cases h2
      obtain ⟨a, b, hf, rfl, hq⟩ := ih h1
      refine ⟨_ :: a, b, ⟨by rw [hf.split]; rfl, hf.is, ?_⟩, rfl, hq⟩
      intro y hy w hk
      rcases List.mem_cons.1 hy with rfl | hy
      · cases hk; exact hne _ _ _ _ _ _ rfl
      · exact hf.first y hy w hk
    · exact hne

theorem getParam_first {name : Bytes} {l a : List Expr} {e v : Expr} {b : List Expr} (h : First name l a e v b) :
    ∃ q : Param, getParam name l = some (a.length, q) ∧ e = .assign q.c (.ident q.id) q.p q.op q.lb q.rhs ∧ q.rhs = v ∧ q.id.name = name := by
  obtain ⟨rfl, hk, hf⟩ := h
  induction a with
  | nil =>
    cases hk with
    | mk c ci pi p op lb => exact ⟨⟨c, ⟨ci, pi, name⟩, p, op, lb, v⟩, by simp [getParam], rfl, rfl, rfl⟩
  | cons x a ih =>
    obtain ⟨q, h1, h2⟩ := ih (fun y hy => hf y (by simp [hy]))
    refine ⟨q, ?_, h2⟩
    have hx := hf x (by simp)
    rw [List.cons_append]
    cases x with
    | assign c lhs p op lb rhs =>
      cases lhs with
      | ident i =>
        rw [getParam, if_neg (by intro hn; cases i; cases hn; exact hx _ (.mk _ _ _ _ _ _)), h1]; rfl
      | _ => rw [getParam, h1] <;> first | rfl | (intros; rename_i h; cases h)
    | _ => rw [getParam, h1] <;> first | rfl | (intros; rename_i h; cases h)

theorem attrArgs_some {e : Expr} {l : List Expr} (h : attrArgs e = some l) : AttrCall e l (withArgs e) := by
  unfold attrArgs at h
  split at h
  · rename_i c c' b d q n p l' t fc fm
    split at h
    · rename_i hb
      cases h
      obtain ⟨ci, pi, bn⟩ := b
      cases hb
      exact .mk _ _ _ _ _ _ _ _ _ _ _ _
    · cases h
  · cases h

theorem attrArgs_of {e : Expr} {l : List Expr} {g : List Expr → Expr} (h : AttrCall e l g) : attrArgs e = some l ∧ g = withArgs e := by
  cases h with
  | mk c c' ci pi d q n p l t fc fm => exact ⟨rfl, rfl⟩

theorem drop_last : ∀ (l : List Expr) (h : l ≠ []), l.drop (l.length - 1) = [l.getLast h]
  | [x], _ => rfl
  | x :: y :: l, _ => by
    have := drop_last (y :: l) (by simp)
    simpa using this

theorem take_split (a : List Expr) (x : Expr) (b : List Expr) : (a ++ x :: b).take a.length = a := by simp
theorem drop_split (a : List Expr) (x : Expr) (b : List Expr) : (a ++ x :: b).drop (a.length + 1) = b := by simp [List.drop_append]
theorem set_split (a : List Expr) (x y : Expr) (b : List Expr) : (a ++ x :: b).set a.length y = a ++ y :: b := by
  induction a with
  | nil => rfl
  | cons z a ih => simp [ih]

/-! ## C82: cfg -/

/-- **C82**: `cfg = "data"` is removed. The call that is replaced is not left alone, though: its `cfg` is gone as well, and its last argument is there twice. -/
theorem C82_cfg_data (e : Expr) (l : List Expr) (g : List Expr → Expr) (hc : AttrCall e l g) (a : List Expr) (x : Expr) (s : StringN) (b : List Expr)
    (hf : First b!"cfg" l a x (.string s) b) (hs : s.value = b!"data") :
    cfgCheck e = some (g (a ++ b ++ [b.getLast?.getD x]), g (a ++ b)) := by
  obtain ⟨h1, rfl⟩ := attrArgs_of hc
  obtain ⟨q, h2, hx, hr, _⟩ := getParam_first hf
  obtain ⟨rfl, _, _⟩ := hf
  unfold cfgCheck
  rw [h1]
  dsimp only
  rw [h2]
  dsimp only
  rw [hr]
  dsimp only
  rw [if_pos hs, take_split, drop_split]
  have : (a ++ x :: b).drop ((a ++ x :: b).length - 1) = [b.getLast?.getD x] := by
    have hl : (a ++ x :: b).drop ((a ++ x :: b).length - 1) = [(a ++ x :: b).getLast (by simp)] := drop_last _ _
    rw [hl]
    cases b with
    | nil => simp
    | cons y b => simp [List.getLast?_eq_some_getLast]
  rw [this]

/-- **C82**: `cfg = "host"` becomes `cfg = "exec"`, all else stays, and the call that is replaced is not touched. -/
theorem C82_cfg_host (e : Expr) (l : List Expr) (g : List Expr → Expr) (hc : AttrCall e l g) (a : List Expr) (x : Expr) (s : StringN) (b : List Expr)
    (hf : First b!"cfg" l a x (.string s) b) (hs : s.value = b!"host") :
    ∃ y, Renamed b!"cfg" (.string { s with value := b!"exec" }) x y ∧ cfgCheck e = some (e, g (a ++ y :: b)) := by
  obtain ⟨h1, rfl⟩ := attrArgs_of hc
  obtain ⟨q, h2, hx, hr, hn⟩ := getParam_first hf
  obtain ⟨rfl, _, _⟩ := hf
  refine ⟨.assign q.c (.ident q.id) q.p q.op q.lb (.string { s with value := b!"exec" }), ?_, ?_⟩
  · rw [hx]
    obtain ⟨c, ⟨ci, pi, qn⟩, p, op, lb, rhs⟩ := q
    cases hn
    exact .mk _ _ _ _ _ _ _ _
  · unfold cfgCheck
    rw [h1]
    dsimp only
    rw [h2]
    dsimp only
    rw [hr]
    dsimp only
    rw [if_neg (by rw [hs]; decide), if_pos hs, set_split]

/-- **C82**: nothing else is reported: only `attr.xxx` calls whose first `cfg` is the string "data" or "host". -/
theorem C82_cfg_only (e : Expr) (h : cfgCheck e ≠ none) :
    ∃ l g a x s b, AttrCall e l g ∧ First b!"cfg" l a x (.string s) b ∧ (s.value = b!"data" ∨ s.value = b!"host") := by
  unfold cfgCheck at h
  cases h1 : attrArgs e with
  | none => rw [h1] at h; exact absurd rfl h
  | some l =>
    rw [h1] at h
    dsimp only at h
    cases h2 : getParam b!"cfg" l with
    | none => rw [h2] at h; exact absurd rfl h
    | some iq =>
      obtain ⟨i, q⟩ := iq
      rw [h2] at h
      dsimp only at h
      obtain ⟨a, b, hf, _, _⟩ := getParam_some h2
      cases hq : q.rhs with
      | string s =>
        rw [hq] at h hf
        dsimp only at h
        refine ⟨l, _, a, _, s, b, attrArgs_some h1, hf, ?_⟩
        split at h
        · exact .inl ‹_›
        · split at h
          · exact .inr ‹_›
          · exact absurd rfl h
      | _ => rw [hq] at h; exact absurd rfl h

/-- `attr.label(cfg = "data", mandatory = True)`: merely looking for problems (`-lint=warn`, or a finding disabled by a comment) turns the definition into
`attr.label(mandatory = True, mandatory = True)`, which is what is printed. -/
theorem C82_cfg_corrupts :
    let kw (n : Bytes) (v : Expr) : Expr := .assign {} (.ident { name := n }) {} b!"=" false v
    let call (l : List Expr) : Expr := .call {} (.dot {} (.ident { name := b!"attr" }) {} {} b!"label") {} l {} false false
    let m := kw b!"mandatory" (.ident { name := b!"True" })
    cfgCheck (call [kw b!"cfg" (.string { value := b!"data" }), m]) = some (call [m, m], call [m]) := rfl

/-! ## C82: non_empty -/

theorem negate_ok {τ : Expr → Bool} (hτ : Coherent τ) (e : Expr) : ¬ Variable e → τ (negate e) = !τ e := by
  induction e using negate.induct with
  | case1 c p x r fm ih =>
    intro h
    rw [negate, hτ.paren, hτ.paren]
    exact ih fun hv => h (.paren _ _ _ _ _ hv)
  | case2 c p x => intro _; rw [negate, if_pos rfl, hτ.not, Bool.not_not]
  | case3 c p op x hop => intro _; rw [negate, if_neg hop, hτ.not]
  | case4 i =>
    intro h
    obtain ⟨c, p, n⟩ := i
    rw [negate]
    by_cases h1 : n = b!"True"
    · cases h1
      rw [if_pos rfl, hτ.true, hτ.false]; rfl
    · rw [if_neg h1]
      by_cases h2 : n = b!"False"
      · cases h2; rw [hτ.true, hτ.false]; rfl
      · exact absurd (.ident _ h1 h2) h
  | case5 e h1 h2 h3 =>
    intro _
    have : negate e = .unary {} {} b!"not" e := by
      cases e <;> first | rfl | (exact absurd rfl (h1 _ _ _ _ _)) | (exact absurd rfl (h2 _ _ _ _)) | (exact absurd rfl (h3 _))
    rw [this, hτ.not]

/-- a coherent valuation in which all variables are true -/
def allTrue : Expr → Bool
  | .paren _ _ x _ _ => allTrue x
  | .unary _ _ op x => if op = b!"not" then !allTrue x else true
  | .ident i => i.name ≠ b!"False"
  | _ => true

theorem allTrue_coherent : Coherent allTrue := by
  refine ⟨?_, ?_, ?_, ?_⟩
  · intros; rw [allTrue]
  · intros; rw [allTrue, if_pos rfl]
  · intros; simp [allTrue]
  · intros; simp [allTrue]

theorem allTrue_variable {e : Expr} (h : Variable e) : allTrue e = true ∧ allTrue (negate e) = true := by
  induction h with
  | ident i h1 h2 =>
    rw [negate, if_neg h1]
    exact ⟨by simp [allTrue, h2], by simp [allTrue]⟩
  | paren c p x e fm _ ih => rw [negate, allTrue, allTrue]; exact ih

/-- **C82**: the negated value is the negation of the value, except that of a variable: its "negation" is `True`. -/
theorem C82_negate (e : Expr) : (∀ τ, Coherent τ → τ (negate e) = !τ e) ↔ ¬ Variable e := by
  constructor
  · intro h hv
    have := h _ allTrue_coherent
    obtain ⟨h1, h2⟩ := allTrue_variable hv
    rw [h1, h2] at this
    cases this
  · intro h τ hτ
    exact negate_ok hτ e h

/-- **C82**: `non_empty = v` becomes `allow_empty = ` the negation of `v` in the same place; exactly the `attr.xxx` calls with the parameter are changed. -/
theorem C82_non_empty (e : Expr) :
    (∀ e', nonEmptyFix e = some e' ↔ ∃ l g a x v b y, AttrCall e l g ∧ First b!"non_empty" l a x v b ∧ Renamed b!"allow_empty" (negate v) x y ∧ e' = g (a ++ y :: b)) := by
  intro e'
  constructor
  · intro h
    unfold nonEmptyFix at h
    cases h1 : attrArgs e with
    | none => rw [h1] at h; cases h
    | some l =>
      rw [h1] at h
      dsimp only at h
      cases h2 : getParam b!"non_empty" l with
      | none => rw [h2] at h; cases h
      | some iq =>
        obtain ⟨i, q⟩ := iq
        rw [h2] at h
        dsimp only at h
        obtain ⟨a, b, hf, rfl, hn⟩ := getParam_some h2
        refine ⟨l, _, a, _, _, b, .assign q.c (.ident { q.id with name := b!"allow_empty" }) q.p q.op q.lb (negate q.rhs), attrArgs_some h1, hf, ?_, ?_⟩
        · exact .mk _ _ _ _ _ _ _ _
        · cases h
          rw [hf.split, set_split]
  · rintro ⟨l, g, a, x, v, b, y, hc, hf, hr, rfl⟩
    obtain ⟨h1, rfl⟩ := attrArgs_of hc
    obtain ⟨q, h2, rfl, hq, _⟩ := getParam_first hf
    unfold nonEmptyFix
    rw [h1]
    dsimp only
    rw [h2]
    dsimp only
    rw [hf.split, set_split, hq]
    obtain ⟨c, ⟨ci, pi, n⟩, p, op, lb, rhs⟩ := q
    cases hr
    rfl

/-- `attr.label_list(non_empty = x)` becomes `allow_empty = True`, whatever `x` is -/
theorem C82_non_empty_witness :
    let kw (n : Bytes) (v : Expr) : Expr := .assign {} (.ident { name := n }) {} b!"=" false v
    let call (l : List Expr) : Expr := .call {} (.dot {} (.ident { name := b!"attr" }) {} {} b!"label_list") {} l {} false false
    nonEmptyFix (call [kw b!"non_empty" (.ident { name := b!"x" })]) = some (call [kw b!"allow_empty" (.ident { name := b!"True" })]) := rfl

/-! ## C82: single_file -/

/-- the name `False` -/
def IsFalse (v : Expr) : Prop := ∃ c p, v = .ident ⟨c, p, b!"False"⟩

theorem falseName_iff (v : Expr) : falseName v = true ↔ IsFalse v := by
  constructor
  · intro h
    cases v <;> simp [falseName] at h
    rename_i i
    obtain ⟨c, p, n⟩ := i
    cases h
    exact ⟨c, p, rfl⟩
  · rintro ⟨c, p, rfl⟩; rfl

/-- what becomes of the arguments of a definition with `single_file = v` -/
inductive SingleFile (l : List Expr) : List Expr → Prop
  /-- `single_file = False` is removed -/
  | false (a x v b) : First b!"single_file" l a x v b → IsFalse v → SingleFile l (a ++ b)
  /-- otherwise it is renamed, … -/
  | alone (a x v b y) : First b!"single_file" l a x v b → ¬ IsFalse v → (∀ z ∈ l, ∀ w, ¬ Keyword b!"allow_files" w z) →
      Renamed b!"allow_single_file" v x y → SingleFile l (a ++ y :: b)
  /-- … and takes over the value of `allow_files`, which may come before … -/
  | before (a₁ z w a₂ x v b y) : First b!"single_file" l (a₁ ++ z :: a₂) x v b → ¬ IsFalse v → First b!"allow_files" l a₁ z w (a₂ ++ x :: b) →
      Renamed b!"allow_single_file" w x y → SingleFile l (a₁ ++ a₂ ++ y :: b)
  /-- … or after it. -/
  | after (a x v b₁ z w b₂ y) : First b!"single_file" l a x v (b₁ ++ z :: b₂) → ¬ IsFalse v → First b!"allow_files" l (a ++ x :: b₁) z w b₂ →
      Renamed b!"allow_single_file" w x y → SingleFile l (a ++ y :: b₁ ++ b₂)

theorem split_two {a b a' b' : List Expr} {x z : Expr} (h : a ++ x :: b = a' ++ z :: b') (hne : x ≠ z) :
    (∃ m, a = a' ++ z :: m ∧ b' = m ++ x :: b) ∨ (∃ m, a' = a ++ x :: m ∧ b = m ++ z :: b') := by
  rw [List.append_eq_append_iff] at h
  rcases h with ⟨m, h1, h2⟩ | ⟨m, h1, h2⟩
  · cases m with
    | nil => simp at h2; exact absurd h2.1 hne
    | cons y m => simp at h2; exact .inr ⟨m, by rw [h1, h2.1], h2.2⟩
  · cases m with
    | nil => simp at h2; exact absurd h2.1.symm hne
    | cons y m => simp at h2; exact .inl ⟨m, by rw [h1, h2.1], h2.2⟩

theorem keyword_name {n n' : Bytes} {v v' x : Expr} (h : Keyword n v x) (h' : Keyword n' v' x) : n = n' ∧ v = v' := by
  cases h; cases h'; exact ⟨rfl, rfl⟩

/-- **C82**: exactly the `attr.xxx` calls with `single_file` are changed, and as `SingleFile` says. -/
theorem C82_single_file (e : Expr) :
    (singleFileFix e = none ↔ ∀ l g, AttrCall e l g → ∀ x ∈ l, ∀ v, ¬ Keyword b!"single_file" v x) ∧
    ∀ e', singleFileFix e = some e' → ∃ l g l', AttrCall e l g ∧ SingleFile l l' ∧ e' = g l' := by
  constructor
  · constructor
    · intro h l g hc
      obtain ⟨h1, _⟩ := attrArgs_of hc
      refine getParam_none.1 ?_
      cases h2 : getParam b!"single_file" l with
      | none => rfl
      | some iq =>
        exfalso
        unfold singleFileFix at h
        rw [h1] at h
        dsimp only at h
        rw [h2] at h
        dsimp only at h
        split at h
        · cases h
        · split at h <;> cases h
    · intro h
      unfold singleFileFix
      cases h1 : attrArgs e with
      | none => rfl
      | some l =>
        dsimp only
        rw [getParam_none.2 (h l _ (attrArgs_some h1))]
  · intro e' h
    unfold singleFileFix at h
    cases h1 : attrArgs e with
    | none => rw [h1] at h; cases h
    | some l =>
      rw [h1] at h
      dsimp only at h
      cases h2 : getParam b!"single_file" l with
      | none => rw [h2] at h; cases h
      | some iq =>
        obtain ⟨i, q⟩ := iq
        rw [h2] at h
        dsimp only at h
        obtain ⟨a, b, hf, rfl, hn⟩ := getParam_some h2
        refine ⟨l, withArgs e, ?_⟩
        split at h
        · rename_i hfalse
          cases h
          exact ⟨a ++ b, attrArgs_some h1, .false a _ _ b hf ((falseName_iff _).1 hfalse), by rw [hf.split, take_split, drop_split]⟩
        · rename_i hfalse
          have hnf : ¬ IsFalse q.rhs := fun h => hfalse ((falseName_iff _).2 h)
          cases h3 : getParam b!"allow_files" l with
          | none =>
            rw [h3] at h
            cases h
            exact ⟨_, attrArgs_some h1, .alone a _ _ b _ hf hnf (getParam_none.1 h3) (.mk _ _ _ _ _ _ _ _), by rw [hf.split, set_split]⟩
          | some jw =>
            obtain ⟨j, w⟩ := jw
            rw [h3] at h
            obtain ⟨a', b', hf', rfl, hn'⟩ := getParam_some h3
            have hne : Expr.assign q.c (.ident q.id) q.p q.op q.lb q.rhs ≠ .assign w.c (.ident w.id) w.p w.op w.lb w.rhs := by
              intro heq
              injection heq with _ heq
              injection heq with heq
              rw [heq, hn'] at hn
              revert hn; decide
            have hs := hf.split.symm.trans hf'.split
            cases h
            rcases split_two hs hne with ⟨m, rfl, rfl⟩ | ⟨m, rfl, rfl⟩
            · refine ⟨_, attrArgs_some h1, .before a' _ _ m _ _ b _ hf hnf hf' (.mk _ _ _ _ _ _ _ _), ?_⟩
              rw [hf.split, set_split, List.append_assoc, List.cons_append, take_split, drop_split, List.append_assoc]
            · refine ⟨_, attrArgs_some h1, .after a _ _ m _ _ b' _ hf hnf hf' (.mk _ _ _ _ _ _ _ _), ?_⟩
              rw [hf.split, set_split]
              have : ∀ y : Expr, a ++ y :: (m ++ Expr.assign w.c (.ident w.id) w.p w.op w.lb w.rhs :: b') =
                  (a ++ y :: m) ++ .assign w.c (.ident w.id) w.p w.op w.lb w.rhs :: b' := by intro y; simp
              rw [this]
              have hlen : ∀ y z : Expr, (a ++ y :: m).length = (a ++ z :: m).length := by intros; simp
              rw [hlen _ (.assign q.c (.ident { q.id with name := b!"allow_single_file" }) q.p q.op q.lb w.rhs), take_split, drop_split]

/-- `single_file = x, allow_files = y` becomes `allow_single_file = y`: the value of `x` is gone -/
theorem C82_single_file_witness :
    let kw (n : Bytes) (v : Expr) : Expr := .assign {} (.ident { name := n }) {} b!"=" false v
    let id (n : Bytes) : Expr := .ident { name := n }
    let call (l : List Expr) : Expr := .call {} (.dot {} (.ident { name := b!"attr" }) {} {} b!"label") {} l {} false false
    singleFileFix (call [kw b!"single_file" (id b!"x"), kw b!"mandatory" (id b!"True"), kw b!"allow_files" (id b!"y")]) =
      some (call [kw b!"allow_single_file" (id b!"y"), kw b!"mandatory" (id b!"True")]) := rfl

/-! ## C82: what is reported -/

theorem foldl_filter (p : Expr → Bool) : ∀ (l : List (List Expr × Expr)) (log : List Expr),
    l.foldl (fun log q => if p q.2 then log ++ [q.2] else log) log = log ++ (l.map (·.2)).filter p
  | [], log => by simp
  | q :: l, log => by
    rw [List.foldl_cons, foldl_filter p l]
    by_cases h : p q.2 = true <;> simp [h]

/-- **C82**: the nodes reported are the nodes of the file that the check changes, each once and in order. -/
theorem C82_reported (check : Expr → Option Expr) (f : Expr) : reported check f = ((Props.Walk.occ [] f).map (·.2)).filter fun x => (check x).isSome := by
  unfold reported
  rw [Props.Walk.C26_walk_visits_every_node_once]
  rw [foldl_filter (fun x => (check x).isSome)]
  rfl

/-! ## Specification of C83 -/

/-- not of the form `x = y`, `*x` or `**x` -/
def Plain (e : Expr) : Prop := (∀ c x p op lb y, e ≠ .assign c x p op lb y) ∧ ∀ c p op x, e = .unary c p op x → op ≠ b!"*" ∧ op ≠ b!"**"

/-- the four kinds of arguments of a call -/
inductive Arg : Expr → Kind → Prop
  | positional (e) : Plain e → Arg e .positional
  | keyword (c i p lb v) : Plain v → Arg (.assign c (.ident i) p b!"=" lb v) .keyword
  | args (c p x) : Arg (.unary c p b!"*" x) .args
  | kwargs (c p x) : Arg (.unary c p b!"**" x) .kwargs

/-- an argument list as Starlark wants it: no positional argument comes after another one -/
structure Args (l : List Expr) : Prop where
  arg : ∀ e ∈ l, ∃ k, Arg e k
  order : l.Pairwise fun e e' => Arg e' .positional → Arg e .positional

/-- the list has so many positional arguments -/
inductive Positionals : List Expr → Nat → Prop
  | nil : Positionals [] 0
  | yes (e l n) : Arg e .positional → Positionals l n → Positionals (e :: l) (n + 1)
  | no (e l n) : ¬ Arg e .positional → Positionals l n → Positionals (e :: l) n

/-- The call gives the parameter `n` the value `v`: by keyword, or by position, which is the number of positional arguments before. -/
inductive Gives (params : List Bytes) (l : List Expr) (n : Bytes) (v : Expr) : Prop
  | keyword (c i p lb) : .assign c (.ident i) p b!"=" lb v ∈ l → i.name = n → Gives params l n v
  | positional (a b k) : l = a ++ v :: b → Arg v .positional → Positionals a k → params[k]? = some n → Gives params l n v

/-- an argument the function wants in another form: `x = v` where the parameter `x` of this index is positional-only, or a positional argument at the index of
a keyword-only parameter -/
inductive Misplaced (pos kw : List Bytes) (i : Nat) : Expr → Prop
  | keyword (c id p lb v) : pos[i]? = some id.name → Misplaced pos kw i (.assign c (.ident id) p b!"=" lb v)
  | positional (e) : Plain e → pos.length ≤ i → i < pos.length + kw.length → Misplaced pos kw i e

/-! ## Proofs -/

theorem arg_type {e : Expr} {k : Kind} (h : Arg e k) : (paramType e).1 = k := by
  cases h with
  | positional _ h =>
    obtain ⟨h1, h2⟩ := h
    cases e with
    | assign c x p op lb y => exact absurd rfl (h1 _ _ _ _ _ _)
    | unary c p op x =>
      obtain ⟨h3, h4⟩ := h2 _ _ _ _ rfl
      simp [paramType, h3, h4]
    | _ => rfl
  | keyword c i p lb v _ => rfl
  | args c p x => rfl
  | kwargs c p x => rfl

theorem arg_kind {e : Expr} {k k' : Kind} (h : Arg e k) (h' : Arg e k') : k = k' := (arg_type h).symm.trans (arg_type h')

theorem positionals_all {l : List Expr} (h : ∀ e ∈ l, Arg e .positional) : Positionals l l.length := by
  induction l with
  | nil => exact .nil
  | cons e l ih => exact .yes _ _ _ (h e (by simp)) (ih fun x hx => h x (by simp [hx]))

theorem positionals_unique {l : List Expr} {n m : Nat} (h : Positionals l n) (h' : Positionals l m) : n = m := by
  induction h generalizing m with
  | nil => cases h'; rfl
  | yes e l n he _ ih => cases h' with
    | yes _ _ _ _ h => rw [ih h]
    | no _ _ _ hn _ => exact absurd he hn
  | no e l n he _ ih => cases h' with
    | yes _ _ _ hn _ => exact absurd hn he
    | no _ _ _ _ h => exact ih h

/-- what the argument at an index gives -/
def GivesAt (params : List Bytes) (i : Nat) (e : Expr) (n : Bytes) (v : Expr) : Prop :=
  (∃ c id p lb, e = .assign c (.ident id) p b!"=" lb v ∧ id.name = n) ∨ (Arg e .positional ∧ params[i]? = some n ∧ v = e)

theorem gives_iff {params : List Bytes} {l : List Expr} (h : Args l) (n : Bytes) (v : Expr) :
    Gives params l n v ↔ ∃ i e, l[i]? = some e ∧ GivesAt params i e n v := by
  have before : ∀ a b, l = a ++ v :: b → Arg v .positional → Positionals a a.length := by
    intro a b hl hv
    refine positionals_all fun e he => ?_
    have := h.order
    rw [hl, List.pairwise_append] at this
    exact this.2.2 e he v (by simp) hv
  constructor
  · intro hg
    cases hg with
    | keyword c i p lb hm hn =>
      obtain ⟨k, hk⟩ := List.mem_iff_getElem?.1 hm
      exact ⟨k, _, hk, .inl ⟨c, i, p, lb, rfl, hn⟩⟩
    | positional a b k hl hv hk hp =>
      rw [positionals_unique hk (before a b hl hv)] at hp
      exact ⟨a.length, v, by rw [hl]; simp, .inr ⟨hv, hp, rfl⟩⟩
  · rintro ⟨i, e, hi, ⟨c, id, p, lb, rfl, hn⟩ | ⟨hv, hp, rfl⟩⟩
    · exact .keyword c id p lb (List.mem_iff_getElem?.2 ⟨i, hi⟩) hn
    · have hlt := (List.getElem?_eq_some_iff.1 hi).1
      have hl : l = l.take i ++ v :: l.drop (i + 1) := by
        rw [← (List.getElem?_eq_some_iff.1 hi).2]
        simp
      have := before _ _ hl hv
      rw [List.length_take, Nat.min_eq_left (Nat.le_of_lt hlt)] at this
      exact .positional _ _ i hl hv this hp

theorem argChecks_get (pos kw : List Bytes) : ∀ (l : List Expr) (j i : Nat), (argChecks pos kw j l)[i]? = (l[i]?).map (argCheck pos kw (j + i))
  | [], _, i => by simp [argChecks]
  | e :: l, j, 0 => rfl
  | e :: l, j, i + 1 => by
    rw [argChecks, List.getElem?_cons_succ, argChecks_get pos kw l (j + 1) i, List.getElem?_cons_succ, show j + 1 + i = j + (i + 1) by omega]

theorem argChecks_length (pos kw : List Bytes) : ∀ (l : List Expr) (j : Nat), (argChecks pos kw j l).length = l.length
  | [], _ => rfl
  | e :: l, j => by simp [argChecks, argChecks_length pos kw l]

/-- the arguments after the fix -/
def newArgs (pos kw : List Bytes) (l : List Expr) : List Expr := (l.zip (argChecks pos kw 0 l)).map fun q => q.2.1.getD q.1

theorem newArgs_get' (pos kw : List Bytes) : ∀ (l : List Expr) (j i : Nat),
    ((l.zip (argChecks pos kw j l)).map fun q => q.2.1.getD q.1)[i]? = (l[i]?).map fun e => (argCheck pos kw (j + i) e).1.getD e
  | [], _, i => by simp [argChecks]
  | e :: l, j, 0 => rfl
  | e :: l, j, i + 1 => by
    rw [argChecks, List.zip_cons_cons, List.map_cons, List.getElem?_cons_succ, newArgs_get' pos kw l (j + 1) i, List.getElem?_cons_succ,
      show j + 1 + i = j + (i + 1) by omega]

theorem newArgs_get (pos kw : List Bytes) (l : List Expr) (i : Nat) : (newArgs pos kw l)[i]? = (l[i]?).map fun e => (argCheck pos kw i e).1.getD e := by
  have := newArgs_get' pos kw l 0 i
  rw [Nat.zero_add] at this
  exact this

theorem makeKeyword_plain {n : Bytes} {e : Expr} (h : Plain e) : makeKeyword n e = .assign {} (.ident { name := n }) {} b!"=" false e := by
  cases e <;> first | rfl | exact absurd rfl (h.1 _ _ _ _ _ _)

theorem not_misplaced {pos kw : List Bytes} {i : Nat} {e : Expr} {k : Kind} (h : Arg e k) (hk : k ≠ .positional)
    (hn : ∀ c id p lb v, e = .assign c (.ident id) p b!"=" lb v → pos[i]? ≠ some id.name) : ¬ Misplaced pos kw i e := by
  intro hm
  cases hm with
  | keyword c id p lb v hp => exact hn _ _ _ _ _ rfl hp
  | positional e hp _ _ => exact hk (arg_kind h (.positional _ hp))

/-- one argument -/
theorem arg_after {pos kw : List Bytes} {i : Nat} {e : Expr} {k : Kind} (h : Arg e k) :
    Arg ((argCheck pos kw i e).1.getD e) (argCheck pos kw i e).2 ∧
    (∀ n v, GivesAt (pos ++ kw) i ((argCheck pos kw i e).1.getD e) n v ↔ GivesAt (pos ++ kw) i e n v) ∧
    ((argCheck pos kw i e).1.isSome = true ↔ Misplaced pos kw i e) ∧
    (argCheck pos kw i ((argCheck pos kw i e).1.getD e)).1 = none := by
  have ht := arg_type h
  cases h with
  | keyword c id p lb v hv =>
    by_cases hp : pos[i]? = some id.name
    · have hr : argCheck pos kw i (.assign c (.ident id) p b!"=" lb v) = (some v, .positional) := by
        unfold argCheck
        rw [if_pos ⟨rfl, hp⟩]; rfl
      have hi : i < pos.length := (List.getElem?_eq_some_iff.1 hp).1
      rw [hr]
      refine ⟨.positional _ hv, ?_, ?_, ?_⟩
      · intro n w
        have hpp : (pos ++ kw)[i]? = some id.name := by rw [List.getElem?_append_left hi, hp]
        constructor
        · rintro (⟨_, _, _, _, h, _⟩ | ⟨_, h2, rfl⟩)
          · exact absurd h (hv.1 _ _ _ _ _ _)
          · exact .inl ⟨c, id, p, lb, rfl, by rw [hpp] at h2; exact Option.some.inj h2⟩
        · rintro (⟨_, _, _, _, h, hn⟩ | ⟨h1, _, _⟩)
          · cases h
            exact .inr ⟨.positional _ hv, by rw [hpp, hn], rfl⟩
          · have := arg_type h1
            cases this
      · exact ⟨fun _ => .keyword _ _ _ _ _ hp, fun _ => rfl⟩
      · have htv := arg_type (.positional v hv)
        unfold argCheck
        simp only [Option.getD_some]
        rw [if_neg (by rw [htv]; exact fun h => by cases h.1), if_neg (by intro h; omega)]
    · have hr : argCheck pos kw i (.assign c (.ident id) p b!"=" lb v) = (none, .keyword) := by
        unfold argCheck
        rw [if_neg (fun h => hp h.2), if_neg (fun h => by cases h.1)]; rfl
      rw [hr]
      refine ⟨.keyword _ _ _ _ _ hv, fun _ _ => Iff.rfl, ?_, by simp [hr]⟩
      constructor
      · intro h; cases h
      · intro h
        exact absurd h (not_misplaced (.keyword _ _ _ _ _ hv) (by decide) (by
          intro c' id' p' lb' v' he
          cases he
          exact hp))
  | positional _ hv =>
    by_cases hi : pos.length ≤ i ∧ i < pos.length + kw.length
    · have hlt : i - pos.length < kw.length := by omega
      have hk : kw[i - pos.length]? = some (kw[i - pos.length]) := by simp [hlt]
      have hr : argCheck pos kw i e = (some (.assign {} (.ident { name := kw[i - pos.length] }) {} b!"=" false e), .keyword) := by
        unfold argCheck
        rw [if_neg (by rw [ht]; exact fun h => by cases h.1), if_pos ⟨ht, hi⟩, makeKeyword_plain hv, hk]; rfl
      rw [hr]
      refine ⟨.keyword _ _ _ _ _ hv, ?_, ?_, ?_⟩
      · intro n w
        have hpp : (pos ++ kw)[i]? = some (kw[i - pos.length]) := by rw [List.getElem?_append_right hi.1, hk]
        constructor
        · rintro (⟨_, _, _, _, h, hn⟩ | ⟨h1, _, _⟩)
          · cases h
            exact .inr ⟨.positional _ hv, by rw [hpp, ← hn], rfl⟩
          · have := arg_type h1
            cases this
        · rintro (⟨_, _, _, _, h, _⟩ | ⟨_, h2, rfl⟩)
          · exact absurd h (hv.1 _ _ _ _ _ _)
          · exact .inl ⟨_, _, _, _, rfl, by rw [hpp] at h2; exact Option.some.inj h2⟩
      · exact ⟨fun _ => .positional _ hv hi.1 hi.2, fun _ => rfl⟩
      · unfold argCheck
        simp only [Option.getD_some]
        rw [if_neg (by
          intro h
          have := (List.getElem?_eq_some_iff.1 h.2).1
          omega), if_neg (fun h => by cases h.1)]
    · have hr : argCheck pos kw i e = (none, .positional) := by
        unfold argCheck
        rw [if_neg (by rw [ht]; exact fun h => by cases h.1), if_neg (fun h => hi h.2), ht]
      rw [hr]
      refine ⟨.positional _ hv, fun _ _ => Iff.rfl, ?_, by simp [hr]⟩
      constructor
      · intro h; cases h
      · intro h
        cases h with
        | keyword => exact absurd rfl (hv.1 _ _ _ _ _ _)
        | positional _ _ h1 h2 => exact absurd ⟨h1, h2⟩ hi
  | args c p x =>
    refine ⟨.args c p x, fun _ _ => Iff.rfl, ?_, rfl⟩
    exact ⟨(by intro h; cases h), fun h => absurd h (not_misplaced (.args c p x) (by decide) (by intros _ _ _ _ _ h; cases h))⟩
  | kwargs c p x =>
    refine ⟨.kwargs c p x, fun _ _ => Iff.rfl, ?_, rfl⟩
    exact ⟨(by intro h; cases h), fun h => absurd h (not_misplaced (.kwargs c p x) (by decide) (by intros _ _ _ _ _ h; cases h))⟩

theorem sorted_pairwise : ∀ {l : List Kind}, sortedKinds l = true → l.Pairwise fun k k' => k.val ≤ k'.val
  | [], _ => .nil
  | [k], _ => by simp
  | k :: k' :: l, h => by
    rw [sortedKinds, Bool.and_eq_true, decide_eq_true_eq] at h
    have ih := sorted_pairwise h.2
    refine .cons ?_ ih
    intro x hx
    rcases List.mem_cons.1 hx with rfl | hx
    · exact h.1
    · exact Nat.le_trans h.1 ((List.pairwise_cons.1 ih).1 x hx)

theorem kinds_get (pos kw : List Bytes) (l : List Expr) (i : Nat) : ((argChecks pos kw 0 l).map (·.2))[i]? = (l[i]?).map fun e => (argCheck pos kw i e).2 := by
  have := argChecks_get pos kw l 0 i
  rw [List.getElem?_map, this]
  cases l[i]? <;> simp

/-- the new arguments are in order -/
theorem newArgs_ok {pos kw : List Bytes} {l : List Expr} (h : ∀ e ∈ l, ∃ k, Arg e k) (hs : sortedKinds ((argChecks pos kw 0 l).map (·.2)) = true) :
    Args (newArgs pos kw l) := by
  have hget : ∀ i e', (newArgs pos kw l)[i]? = some e' → ∃ e k, l[i]? = some e ∧ Arg e k ∧ e' = (argCheck pos kw i e).1.getD e := by
    intro i e' hi
    rw [newArgs_get, Option.map_eq_some_iff] at hi
    obtain ⟨e, he, rfl⟩ := hi
    obtain ⟨k, hk⟩ := h e (List.mem_iff_getElem?.2 ⟨i, he⟩)
    exact ⟨e, k, he, hk, rfl⟩
  constructor
  · intro e he
    obtain ⟨i, hi⟩ := List.mem_iff_getElem?.1 he
    obtain ⟨e0, k, _, hk, rfl⟩ := hget i e hi
    exact ⟨_, (arg_after hk).1⟩
  · rw [List.pairwise_iff_getElem]
    intro i j hi hj hij hp
    obtain ⟨e, k, he, hk, heq⟩ := hget i _ (List.getElem?_eq_getElem hi)
    obtain ⟨e', k', he', hk', heq'⟩ := hget j _ (List.getElem?_eq_getElem hj)
    rw [heq'] at hp
    rw [heq]
    have hkj := arg_kind (arg_after (pos := pos) (kw := kw) (i := j) hk').1 hp
    have hpw := sorted_pairwise hs
    rw [List.pairwise_iff_getElem] at hpw
    have hki := kinds_get pos kw l i
    have hkj' := kinds_get pos kw l j
    rw [he] at hki
    rw [he'] at hkj'
    obtain ⟨li, hki⟩ := List.getElem?_eq_some_iff.1 hki
    obtain ⟨lj, hkj'⟩ := List.getElem?_eq_some_iff.1 hkj'
    have := hpw i j li lj hij
    rw [hki, hkj'] at this
    dsimp only at this
    rw [hkj] at this
    have h0 : (argCheck pos kw i e).2 = .positional := by
      revert this
      cases (argCheck pos kw i e).2 <;> simp [Kind.val]
    have := (arg_after (pos := pos) (kw := kw) (i := i) hk).1
    rw [h0] at this
    exact this

/-! ## C83 -/

/-- a call by name, or as `native.name` -/
inductive CallOf (n : Bytes) : Expr → Prop
  | name (c i p l t fc fm) : i.name = n → CallOf n (.call c (.ident i) p l t fc fm)
  | native (c c' ci pi d q p l t fc fm) : CallOf n (.call c (.dot c' (.ident ⟨ci, pi, b!"native"⟩) d q n) p l t fc fm)

theorem functionName_iff (e : Expr) (n : Bytes) : functionName e = some n ↔ CallOf n e := by
  constructor
  · intro h
    unfold functionName at h
    split at h
    · cases h; exact .name _ _ _ _ _ _ _ rfl
    · rename_i c c' i d q m p l t fc fm
      split at h
      · rename_i hn
        cases h
        obtain ⟨ci, pi, inn⟩ := i
        cases hn
        exact .native _ _ _ _ _ _ _ _ _ _ _
      · cases h
    · cases h
  · intro h
    cases h with
    | name c i p l t fc fm h => rw [functionName, h]
    | native => rfl

/-- the misplaced arguments from index `j` on -/
inductive MisplacedCount (pos kw : List Bytes) : Nat → List Expr → Nat → Prop
  | nil (j) : MisplacedCount pos kw j [] 0
  | yes (j e l n) : Misplaced pos kw j e → MisplacedCount pos kw (j + 1) l n → MisplacedCount pos kw j (e :: l) (n + 1)
  | no (j e l n) : ¬ Misplaced pos kw j e → MisplacedCount pos kw (j + 1) l n → MisplacedCount pos kw j (e :: l) n

theorem count_ok (pos kw : List Bytes) : ∀ (l : List Expr) (j : Nat), (∀ e ∈ l, ∃ k, Arg e k) →
    MisplacedCount pos kw j l ((argChecks pos kw j l).filter fun q => q.1.isSome).length
  | [], j, _ => .nil j
  | e :: l, j, h => by
    obtain ⟨k, hk⟩ := h e (by simp)
    have ih := count_ok pos kw l (j + 1) fun x hx => h x (by simp [hx])
    have hm := (arg_after (pos := pos) (kw := kw) (i := j) hk).2.2.1
    rw [argChecks, List.filter_cons]
    split
    · rename_i hs; exact .yes _ _ _ _ (hm.1 hs) ih
    · rename_i hs; exact .no _ _ _ _ (fun h => hs (hm.2 h)) ih

/-- **C83**: each argument the function wants in another form is reported, and nothing else. -/
theorem C83_reported (sigs : Bytes → Option (List Bytes × List Bytes)) (n : Bytes) (pos kw : List Bytes) (hn : sigs n = some (pos, kw)) (e : Expr) (hc : CallOf n e)
    (c x p l t fc fm) (he : e = .call c x p l t fc fm) (hl : ∀ a ∈ l, ∃ k, Arg a k) :
    MisplacedCount pos kw 0 l (keywordCheck sigs e).1 := by
  have hf := (functionName_iff e n).2 hc
  subst he
  have := count_ok pos kw l 0 hl
  unfold keywordCheck
  simp only [hf, Option.bind_some, hn]
  split
  · rename_i h0; rw [h0] at this; exact this
  · split <;> exact this

/-- **C83**: other calls, and other nodes, are not touched. -/
theorem C83_others (sigs : Bytes → Option (List Bytes × List Bytes)) (e : Expr) (h : ∀ n, CallOf n e → sigs n = none) : keywordCheck sigs e = (0, e) := by
  unfold keywordCheck
  split
  · rename_i c x p l t fc fm
    cases hf : functionName (.call c x p l t fc fm) with
    | none => rfl
    | some n =>
      dsimp only [Option.bind_some]
      rw [h n ((functionName_iff _ n).1 hf)]
  · rfl

/-- **C83**: the fixed call calls the same function and gives every parameter the same value. -/
theorem C83_same_call (sigs : Bytes → Option (List Bytes × List Bytes)) (n : Bytes) (pos kw : List Bytes) (hn : sigs n = some (pos, kw)) (c x p l t fc fm)
    (hc : CallOf n (.call c x p l t fc fm)) (hl : Args l) :
    ∃ l' fc', (keywordCheck sigs (.call c x p l t fc fm)).2 = .call c x p l' t fc' fm ∧ Args l' ∧
      ∀ m v, Gives (pos ++ kw) l' m v ↔ Gives (pos ++ kw) l m v := by
  have hf := (functionName_iff _ n).2 hc
  unfold keywordCheck
  simp only [hf, Option.bind_some, hn]
  split
  · exact ⟨l, fc, rfl, hl, fun _ _ => Iff.rfl⟩
  · split
    · rename_i hs
      have hok := newArgs_ok hl.arg hs
      refine ⟨_, _, rfl, hok, ?_⟩
      intro m v
      rw [gives_iff (show Args ((l.zip (argChecks pos kw 0 l)).map fun q => q.2.1.getD q.1) from hok), gives_iff hl]
      constructor
      · rintro ⟨i, e', he', hg⟩
        have he2 : (newArgs pos kw l)[i]? = some e' := he'
        rw [newArgs_get, Option.map_eq_some_iff] at he2
        obtain ⟨e, he, rfl⟩ := he2
        obtain ⟨k, hk⟩ := hl.arg e (List.mem_iff_getElem?.2 ⟨i, he⟩)
        exact ⟨i, e, he, ((arg_after hk).2.1 m v).1 hg⟩
      · rintro ⟨i, e, he, hg⟩
        obtain ⟨k, hk⟩ := hl.arg e (List.mem_iff_getElem?.2 ⟨i, he⟩)
        refine ⟨i, (argCheck pos kw i e).1.getD e, ?_, ((arg_after hk).2.1 m v).2 hg⟩
        have := newArgs_get pos kw l i
        rw [he] at this
        exact this
    · exact ⟨l, fc, rfl, hl, fun _ _ => Iff.rfl⟩

theorem count_zero {pos kw : List Bytes} : ∀ {l : List Expr} {j : Nat}, (∀ i e, l[i]? = some e → (argCheck pos kw (j + i) e).1 = none) →
    ((argChecks pos kw j l).filter fun q => q.1.isSome).length = 0
  | [], _, _ => rfl
  | e :: l, j, h => by
    rw [argChecks, List.filter_cons, if_neg (by rw [show argCheck pos kw j e = argCheck pos kw (j + 0) e from rfl, h 0 e rfl]; decide)]
    refine count_zero fun i e he => ?_
    have := h (i + 1) e he
    rwa [show j + (i + 1) = j + 1 + i by omega] at this

/-- **C83**: if the arguments are changed at all, nothing is left to report. -/
theorem C83_again (sigs : Bytes → Option (List Bytes × List Bytes)) (n : Bytes) (pos kw : List Bytes) (hn : sigs n = some (pos, kw)) (c x p l t fc fm)
    (hc : CallOf n (.call c x p l t fc fm)) (hl : ∀ a ∈ l, ∃ k, Arg a k)
    (hch : (keywordCheck sigs (.call c x p l t fc fm)).2 ≠ .call c x p l t fc fm) :
    (keywordCheck sigs (keywordCheck sigs (.call c x p l t fc fm)).2).1 = 0 := by
  have hf := (functionName_iff _ n).2 hc
  unfold keywordCheck at hch
  simp only [hf, Option.bind_some, hn] at hch
  split at hch
  · exact absurd rfl hch
  · split at hch
    · rename_i h0 hs
      have hk : (keywordCheck sigs (.call c x p l t fc fm)).2 = .call c x p (newArgs pos kw l) t
          (if ((argChecks pos kw 0 l).map (·.2)).contains .keyword then false else fc) fm := by
        unfold keywordCheck
        simp only [hf, Option.bind_some, hn]
        rw [if_neg h0, if_pos hs]
        rfl
      rw [hk]
      have hf' : ∀ l' fc', functionName (.call c x p l' t fc' fm) = some n := by
        intro l' fc'
        rw [← hf]
        cases x with
        | dot c' y d q m => cases y <;> rfl
        | _ => rfl
      unfold keywordCheck
      simp only [hf', Option.bind_some, hn]
      rw [if_pos]
      refine count_zero fun i e' he' => ?_
      rw [newArgs_get, Option.map_eq_some_iff] at he'
      obtain ⟨e, he, rfl⟩ := he'
      obtain ⟨k, hk⟩ := hl e (List.mem_iff_getElem?.2 ⟨i, he⟩)
      rw [Nat.zero_add]
      exact (arg_after hk).2.2.2
    · exact absurd rfl hch

/-- what becomes of the argument at index `i`, and the kind of the result -/
inductive Becomes (pos kw : List Bytes) (i : Nat) : Expr → Expr → Kind → Prop
  | unnamed (c id p lb v) : pos[i]? = some id.name → Becomes pos kw i (.assign c (.ident id) p b!"=" lb v) v .positional
  | named (e n) : Plain e → pos.length ≤ i → kw[i - pos.length]? = some n → Becomes pos kw i e (.assign {} (.ident { name := n }) {} b!"=" false e) .keyword
  | same (e k) : ¬ Misplaced pos kw i e → Arg e k → Becomes pos kw i e e k

/-- positional arguments come first, then keywords, then `*args`, then `**kwargs` -/
def InOrder (k k' : Kind) : Prop :=
  k = k' ∨ k = .positional ∨ k' = .kwargs ∨ (k = .keyword ∧ k' = .args)

theorem inOrder_iff (k k' : Kind) : k.val ≤ k'.val ↔ InOrder k k' := by
  cases k <;> cases k' <;> simp [InOrder, Kind.val]

theorem sorted_iff {l : List Kind} : sortedKinds l = true ↔ l.Pairwise InOrder := by
  constructor
  · intro h
    exact (sorted_pairwise h).imp fun h => (inOrder_iff _ _).1 h
  · intro h
    induction l with
    | nil => rfl
    | cons k l ih =>
      cases l with
      | nil => rfl
      | cons k' l =>
        rw [List.pairwise_cons] at h
        rw [sortedKinds, Bool.and_eq_true, decide_eq_true_eq]
        exact ⟨(inOrder_iff _ _).2 (h.1 k' (by simp)), ih h.2⟩

theorem becomes_ok {pos kw : List Bytes} {i : Nat} {e : Expr} {k : Kind} (h : Arg e k) :
    Becomes pos kw i e ((argCheck pos kw i e).1.getD e) (argCheck pos kw i e).2 := by
  have hm := (arg_after (pos := pos) (kw := kw) (i := i) h).2.2.1
  have hk := (arg_after (pos := pos) (kw := kw) (i := i) h).1
  cases hr : (argCheck pos kw i e).1 with
  | none =>
    rw [hr] at hm hk
    exact .same _ _ (fun hx => by cases hm.2 hx) hk
  | some e' =>
    have := hm.1 (by rw [hr]; rfl)
    cases this with
    | keyword c id p lb v hp =>
      have : argCheck pos kw i (.assign c (.ident id) p b!"=" lb v) = (some v, .positional) := by
        unfold argCheck
        rw [if_pos ⟨rfl, hp⟩]; rfl
      rw [this] at hr ⊢
      cases hr
      exact .unnamed _ _ _ _ _ hp
    | positional _ hv h1 h2 =>
      have hlt : i - pos.length < kw.length := by omega
      have hk' : kw[i - pos.length]? = some (kw[i - pos.length]) := by simp [hlt]
      have : argCheck pos kw i e = (some (.assign {} (.ident { name := kw[i - pos.length] }) {} b!"=" false e), .keyword) := by
        have ht := arg_type (.positional e hv)
        unfold argCheck
        rw [if_neg (by rw [ht]; exact fun h => by cases h.1), if_pos ⟨ht, h1, h2⟩, makeKeyword_plain hv, hk']; rfl
      rw [this] at hr ⊢
      cases hr
      exact .named _ _ hv h1 hk'

theorem becomes_fun {pos kw : List Bytes} {i : Nat} {e e1 e2 : Expr} {k1 k2 : Kind} (h1 : Becomes pos kw i e e1 k1) (h2 : Becomes pos kw i e e2 k2) :
    e1 = e2 ∧ k1 = k2 := by
  have nlt {n : Bytes} (h : pos.length ≤ i) (h' : kw[i - pos.length]? = some n) : i < pos.length + kw.length := by
    have := (List.getElem?_eq_some_iff.1 h').1
    omega
  cases h1 with
  | unnamed c id p lb v hp =>
    cases h2 with
    | unnamed _ _ _ _ _ _ => exact ⟨rfl, rfl⟩
    | named _ _ hv _ _ => exact absurd rfl (hv.1 _ _ _ _ _ _)
    | same _ _ hm _ => exact absurd (.keyword _ _ _ _ _ hp) hm
  | named _ n hv hl hk =>
    cases h2 with
    | unnamed _ _ _ _ _ _ => exact absurd rfl (hv.1 _ _ _ _ _ _)
    | named _ n' _ _ hk' => rw [hk] at hk'; cases hk'; exact ⟨rfl, rfl⟩
    | same _ _ hm _ => exact absurd (.positional _ hv hl (nlt hl hk)) hm
  | same _ _ hm ha =>
    cases h2 with
    | unnamed _ _ _ _ _ hp => exact absurd (.keyword _ _ _ _ _ hp) hm
    | named _ _ hv hl hk => exact absurd (.positional _ hv hl (nlt hl hk)) hm
    | same _ _ _ ha' => exact ⟨rfl, arg_kind ha ha'⟩

/-- **C83**: the fix is made exactly if afterwards the arguments are in order (positional, keywords, `*args`, `**kwargs`); then every argument the function wants in
another form gets it, and the others stay. Otherwise the call stays. -/
theorem C83_applied (sigs : Bytes → Option (List Bytes × List Bytes)) (n : Bytes) (pos kw : List Bytes) (hn : sigs n = some (pos, kw)) (c x p l t fc fm)
    (hc : CallOf n (.call c x p l t fc fm)) (l' : List Expr) (ks : List Kind) (h1 : l'.length = l.length) (h2 : ks.length = l.length)
    (hb : ∀ (i : Nat) e e' k, l[i]? = some e → l'[i]? = some e' → ks[i]? = some k → Becomes pos kw i e e' k) (hl : ∀ a ∈ l, ∃ k, Arg a k) :
    (ks.Pairwise InOrder → ∃ fc', (keywordCheck sigs (.call c x p l t fc fm)).2 = .call c x p l' t fc' fm) ∧
    (¬ ks.Pairwise InOrder → (keywordCheck sigs (.call c x p l t fc fm)).2 = .call c x p l t fc fm) := by
  have hl' : l' = newArgs pos kw l := by
    apply List.ext_getElem?
    intro i
    rw [newArgs_get]
    by_cases hi : i < l.length
    · have e1 : l[i]? = some l[i] := by simp [hi]
      have e2 : l'[i]? = some (l'[i]'(by omega)) := by simp [h1, hi]
      have e3 : ks[i]? = some (ks[i]'(by omega)) := by simp [h2, hi]
      obtain ⟨k, hk⟩ := hl l[i] (List.getElem_mem hi)
      have := (becomes_fun (hb i _ _ _ e1 e2 e3) (becomes_ok hk)).1
      rw [e1, e2, this]; rfl
    · rw [List.getElem?_eq_none (by omega), List.getElem?_eq_none (by omega)]; rfl
  have hks : ks = (argChecks pos kw 0 l).map (·.2) := by
    apply List.ext_getElem?
    intro i
    rw [kinds_get]
    by_cases hi : i < l.length
    · have e1 : l[i]? = some l[i] := by simp [hi]
      have e2 : l'[i]? = some (l'[i]'(by omega)) := by simp [h1, hi]
      have e3 : ks[i]? = some (ks[i]'(by omega)) := by simp [h2, hi]
      obtain ⟨k, hk⟩ := hl l[i] (List.getElem_mem hi)
      have := (becomes_fun (hb i _ _ _ e1 e2 e3) (becomes_ok hk)).2
      rw [e1, e3, this]; rfl
    · rw [List.getElem?_eq_none (by omega), List.getElem?_eq_none (by omega)]; rfl
  have hf := (functionName_iff _ n).2 hc
  rw [hks, ← sorted_iff]
  unfold keywordCheck
  simp only [hf, Option.bind_some, hn]
  split
  next h0 =>
    refine ⟨fun _ => ⟨fc, ?_⟩, fun _ => rfl⟩
    have : l' = l := by
      rw [hl']
      apply List.ext_getElem?
      intro i
      rw [newArgs_get]
      cases hi : l[i]? with
      | none => rfl
      | some e =>
        have hg : (argChecks pos kw 0 l)[i]? = some (argCheck pos kw i e) := by
          have := argChecks_get pos kw l 0 i
          rw [hi] at this
          simpa using this
        have hmem := List.mem_of_getElem? hg
        have : (argCheck pos kw i e).1.isSome ≠ true := by
          intro hs
          have : argCheck pos kw i e ∈ (argChecks pos kw 0 l).filter fun q => q.1.isSome := List.mem_filter.2 ⟨hmem, hs⟩
          rw [List.length_eq_zero_iff.1 h0] at this
          cases this
        cases hr : (argCheck pos kw i e).1 with
        | none => simp [hr]
        | some _ => rw [hr] at this; exact absurd rfl this
    rw [this]
  next =>
    split
    next hs => exact ⟨fun _ => ⟨_, by rw [hl']; rfl⟩, fun h => absurd hs h⟩
    next hs => exact ⟨fun h => absurd h hs, fun _ => rfl⟩

/-- `getattr(x = a, name = "n", default = None)` becomes `getattr(a, "n", None)` -/
example :
    let kw (n : Bytes) (v : Expr) : Expr := .assign {} (.ident { name := n }) {} b!"=" false v
    let id (n : Bytes) : Expr := .ident { name := n }
    let sigs : Bytes → Option (List Bytes × List Bytes) := fun n => if n = b!"getattr" then some ([b!"x", b!"name", b!"default"], []) else none
    keywordCheck sigs (.call {} (id b!"getattr") {} [kw b!"x" (id b!"a"), kw b!"name" (.string { value := b!"n" }), kw b!"default" (id b!"None")] {} false false) =
      (3, .call {} (id b!"getattr") {} [id b!"a", .string { value := b!"n" }, id b!"None"] {} false false) := rfl

/-- those arguments are well-formed -/
example :
    let kw (n : Bytes) (v : Expr) : Expr := .assign {} (.ident { name := n }) {} b!"=" false v
    Args [kw b!"x" (.ident { name := b!"a" }), kw b!"name" (.string { value := b!"n" })] := by
  constructor
  · intro e he
    simp only [List.mem_cons, List.not_mem_nil, or_false] at he
    rcases he with rfl | rfl
    · exact ⟨_, .keyword _ _ _ _ _ ⟨(by intros _ _ _ _ _ _ h; cases h), (by intros _ _ _ _ h; cases h)⟩⟩
    · exact ⟨_, .keyword _ _ _ _ _ ⟨(by intros _ _ _ _ _ _ h; cases h), (by intros _ _ _ _ h; cases h)⟩⟩
  · refine .cons ?_ (by simp)
    intro e he h
    rw [List.mem_singleton.1 he] at h
    have := arg_type h
    cases this

/-- A keyword is only looked at in its own place: `getattr(name = "n", default = None, x = a)` has no finding at all; `getattr(x = a, default = None, name = "n")` becomes `getattr(a, default = None, name = "n")`. -/
theorem C83_order_witness :
    let kw (n : Bytes) (v : Expr) : Expr := .assign {} (.ident { name := n }) {} b!"=" false v
    let id (n : Bytes) : Expr := .ident { name := n }
    let sigs : Bytes → Option (List Bytes × List Bytes) := fun n => if n = b!"getattr" then some ([b!"x", b!"name", b!"default"], []) else none
    let call (l : List Expr) : Expr := .call {} (id b!"getattr") {} l {} false false
    (keywordCheck sigs (call [kw b!"name" (id b!"n"), kw b!"default" (id b!"d"), kw b!"x" (id b!"a")])).1 = 0 ∧
    keywordCheck sigs (call [kw b!"x" (id b!"a"), kw b!"default" (id b!"d"), kw b!"name" (id b!"n")]) =
      (1, call [id b!"a", kw b!"default" (id b!"d"), kw b!"name" (id b!"n")]) := ⟨rfl, rfl⟩

end Verif.Props.ApiWarn
