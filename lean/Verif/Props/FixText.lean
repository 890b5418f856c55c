import Verif.Props.Fix
/-
C79: `genruleFixHeuristicLabels` and `moveLicenses` (edit/fix.go).
-/
namespace Verif.Props.FixText
open Verif Verif.Syntax Verif.Walk Verif.Edit Verif.Fix Verif.Props.Fix

/-! ## Specification -/

/-- the characters of a label -/
def LabelChar (c : UInt8) : Prop := c ∈ b!"abcdefghijklmnopqrstuvwxyzABCDEFGHIJKLMNOPQRSTUVWXYZ0123456789:/_.+-"

def Word (t : Bytes) : Prop := ∀ c ∈ t, LabelChar c
def Gap (t : Bytes) : Prop := ∀ c ∈ t, ¬ LabelChar c

/-- the text in alternating words (label characters) and gaps (other characters), none of them empty -/
inductive Tokens : List Bytes → Prop
  | nil : Tokens []
  | one (t) : t ≠ [] → Word t ∨ Gap t → Tokens [t]
  | wordGap (t u ts) : t ≠ [] → Word t → Gap u → Tokens (u :: ts) → Tokens (t :: u :: ts)
  | gapWord (t u ts) : t ≠ [] → Gap t → Word u → Tokens (u :: ts) → Tokens (t :: u :: ts)

/-- the token names a label: literally, or with the leading colon left out -/
inductive Name (L : Bytes → Prop) (t : Bytes) : Bytes → Prop
  | exact : L t → Name L t t
  | colon : ¬ L t → L (c!":" :: t) → Name L t (c!":" :: t)

def IsLocation (t : Bytes) : Prop := t = b!"location" ∨ t = b!"locations"

/-- the token is within reach of a `location`: itself, or an earlier one with no label from there on -/
def Protected (L : Bytes → Prop) (before : List Bytes) (t : Bytes) : Prop :=
  IsLocation t ∨ ∃ pre w mid, before = pre ++ w :: mid ∧ IsLocation w ∧ ∀ x ∈ w :: mid, ¬ ∃ n, Name L x n

/-- `ts'` are the tokens `ts` (after the tokens `before`), where every label that is not protected is wrapped in `$(location …)` -/
inductive Explicit (L : Bytes → Prop) : List Bytes → List Bytes → List Bytes → Prop
  | nil (before) : Explicit L before [] []
  | keep (before t ts ts') : (¬ ∃ n, Name L t n) ∨ Protected L before t → Explicit L (before ++ [t]) ts ts' → Explicit L before (t :: ts) (t :: ts')
  | wrap (before t n ts ts') : Name L t n → ¬ Protected L before t → Explicit L (before ++ [t]) ts ts' →
      Explicit L before (t :: ts) ((b!"$(location " ++ n ++ b!")") :: ts')

/-! ## Tokens -/

theorem labelChar_iff (c : UInt8) : isLabelChar c = true ↔ LabelChar c := by
  have h : ∀ n : Fin 256, isLabelChar (UInt8.ofNat n) = decide (UInt8.ofNat n ∈
      (b!"abcdefghijklmnopqrstuvwxyzABCDEFGHIJKLMNOPQRSTUVWXYZ0123456789:/_.+-" : List UInt8)) := by decide +kernel
  have h1 := h ⟨c.toNat, UInt8.toNat_lt c⟩
  simp only [UInt8.ofNat_toNat] at h1
  rw [h1]
  simp only [decide_eq_true_eq, LabelChar]

theorem parts_ne : ∀ s, ∀ t ∈ parts s, t ≠ []
  | [], t, h => by simp [parts] at h
  | c :: l, t, h => by
    have ih := parts_ne l
    rw [parts] at h
    split at h
    · rename_i d w ws hp
      rw [hp] at ih
      split at h
      · rcases List.mem_cons.1 h with rfl | h
        · simp
        · exact ih t (by simp [h])
      · rcases List.mem_cons.1 h with rfl | h
        · simp
        · exact ih t h
    · rcases List.mem_cons.1 h with rfl | h
      · simp
      · exact ih t h

theorem parts_flatten : ∀ s, (parts s).flatten = s
  | [] => rfl
  | c :: l => by
    have ih := parts_flatten l
    rw [parts]
    split
    · rename_i d w ws hp
      rw [hp] at ih
      split
      · simpa using ih
      · simpa using ih
    · simp [ih]

theorem tokens_tail_cases {t : Bytes} {ts : List Bytes} (h : Tokens (t :: ts)) : t ≠ [] ∧ (Word t ∨ Gap t) := by
  cases h with
  | one _ h1 h2 => exact ⟨h1, h2⟩
  | wordGap _ _ _ h1 h2 => exact ⟨h1, .inl h2⟩
  | gapWord _ _ _ h1 h2 => exact ⟨h1, .inr h2⟩

theorem parts_tokens : ∀ s, Tokens (parts s)
  | [] => .nil
  | c :: l => by
    have ih := parts_tokens l
    rw [parts]
    split
    · rename_i d w ws hp
      rw [hp] at ih
      have hword : Word [c] ↔ isLabelChar c = true := by simp [Word, labelChar_iff]
      have hgap : Gap [c] ↔ ¬ isLabelChar c = true := by simp [Gap, labelChar_iff]
      have hcw : ∀ x, Word (c :: x) ↔ isLabelChar c = true ∧ Word x := by intro x; simp [Word, labelChar_iff]
      have hcg : ∀ x, Gap (c :: x) ↔ ¬ isLabelChar c = true ∧ Gap x := by intro x; simp [Gap, labelChar_iff]
      have hdw : Word (d :: w) → isLabelChar d = true := fun h => (labelChar_iff d).2 (h d (by simp))
      have hdg : Gap (d :: w) → ¬ isLabelChar d = true := fun h => by rw [labelChar_iff]; exact h d (by simp)
      split
      · rename_i he
        cases ih with
        | one _ h1 h2 =>
          refine .one _ (by simp) ?_
          rw [hcw, hcg, he]
          exact h2.imp (fun h => ⟨hdw h, h⟩) fun h => ⟨hdg h, h⟩
        | wordGap _ u ts h1 h2 h3 h4 => exact .wordGap _ u ts (by simp) ((hcw _).2 ⟨he ▸ hdw h2, h2⟩) h3 h4
        | gapWord _ u ts h1 h2 h3 h4 => exact .gapWord _ u ts (by simp) ((hcg _).2 ⟨he ▸ hdg h2, h2⟩) h3 h4
      · rename_i he
        rcases (tokens_tail_cases ih).2 with h | h
        · have hd := hdw h
          refine .gapWord _ _ _ (by simp) (hgap.2 fun hc => he (hc.trans hd.symm)) h ih
        · have hd := hdg h
          refine .wordGap _ _ _ (by simp) (hword.2 ?_) h ih
          cases hc : isLabelChar c with
          | true => rfl
          | false => rw [hc] at he; exact absurd (Bool.eq_false_iff.2 hd).symm he
    · rename_i ws hp
      cases hl : parts l with
      | nil =>
        refine .one _ (by simp) ?_
        by_cases hc : LabelChar c
        · exact .inl (by simpa [Word] using hc)
        · exact .inr (by simpa [Gap] using hc)
      | cons t ts =>
        cases t with
        | nil => exact absurd rfl (parts_ne l [] (by simp [hl]))
        | cons d w => exact absurd hl (hp d w ts)

theorem name_iff (L : Bytes → Bool) (t n : Bytes) :
    (if L t then some t else if L (c!":" :: t) then some (c!":" :: t) else none) = some n ↔ Name (fun s => L s = true) t n := by
  constructor
  · intro h
    split at h
    · rename_i h1; injection h with h; subst h; exact .exact h1
    · rename_i h1
      split at h
      · rename_i h2; injection h with h; subst h; exact .colon h1 h2
      · cases h
  · intro h
    cases h with
    | exact h => simp [h]
    | colon h1 h2 => simp [h1, h2]

theorem name_none (L : Bytes → Bool) (t : Bytes) :
    (if L t then some t else if L (c!":" :: t) then some (c!":" :: t) else none) = none ↔ ¬ ∃ n, Name (fun s => L s = true) t n := by
  rw [Option.eq_none_iff_forall_ne_some]
  constructor
  · rintro h ⟨n, hn⟩; exact h n ((name_iff L t n).2 hn)
  · intro h n hn; exact h ⟨n, (name_iff L t n).1 hn⟩

/-- a `location` without a label since then -/
def Open (L : Bytes → Prop) (before : List Bytes) : Prop :=
  ∃ pre w mid, before = pre ++ w :: mid ∧ IsLocation w ∧ ∀ x ∈ w :: mid, ¬ ∃ n, Name L x n

theorem open_snoc (L : Bytes → Prop) (before : List Bytes) (t : Bytes) :
    Open L (before ++ [t]) ↔ (IsLocation t ∨ Open L before) ∧ ¬ ∃ n, Name L t n := by
  constructor
  · rintro ⟨pre, w, mid, h, hw, hm⟩
    rcases List.eq_nil_or_concat mid with rfl | ⟨mid', x, rfl⟩
    · have := List.append_inj_right' h rfl
      simp at this
      subst this
      exact ⟨.inl hw, hm t (by simp)⟩
    · have h' : before ++ [t] = (pre ++ w :: mid') ++ [x] := by rw [h]; simp
      obtain ⟨h1, h2⟩ := List.append_inj' h' rfl
      simp at h2
      subst h1 h2
      refine ⟨.inr ⟨pre, w, mid', rfl, hw, fun x hx => hm x ?_⟩, hm t (by simp)⟩
      rcases List.mem_cons.1 hx with rfl | hx <;> simp [*]
  · rintro ⟨h | ⟨pre, w, mid, rfl, hw, hm⟩, hn⟩
    · exact ⟨before, t, [], rfl, h, by simpa using hn⟩
    · refine ⟨pre, w, mid ++ [t], by simp, hw, fun x hx => ?_⟩
      rw [← List.cons_append] at hx
      rcases List.mem_append.1 hx with hx | hx
      · exact hm x hx
      · simp at hx; subst hx; exact hn

theorem explicitLoop_spec (L : Bytes → Bool) : ∀ (ts before : List Bytes) (can : Bool), (can = false ↔ Open (fun s => L s = true) before) →
    Explicit (fun s => L s = true) before ts (explicitLoop L can ts)
  | [], before, can, _ => by rw [explicitLoop]; exact .nil before
  | t :: ts, before, can, hc => by
    rw [explicitLoop]
    have hcan : ((if t = b!"location" ∨ t = b!"locations" then false else can) = false) ↔ Protected (fun s => L s = true) before t := by
      show _ ↔ IsLocation t ∨ Open _ before
      rw [← hc]
      split <;> simp_all [IsLocation]
    have hopen : Open (fun s => L s = true) (before ++ [t]) ↔ Protected (fun s => L s = true) before t ∧ ¬ ∃ n, Name (fun s => L s = true) t n :=
      open_snoc ..
    generalize (if t = b!"location" ∨ t = b!"locations" then false else can) = can' at hcan ⊢
    split
    · rename_i hn
      rw [name_none] at hn
      refine .keep _ _ _ _ (.inl hn) (explicitLoop_spec L ts _ _ ?_)
      rw [hopen, hcan]
      exact ⟨fun h => ⟨h, hn⟩, fun h => h.1⟩
    · rename_i n hn
      rw [name_iff] at hn
      have hno : ¬ Open (fun s => L s = true) (before ++ [t]) := fun h => (hopen.1 h).2 ⟨n, hn⟩
      split
      · rename_i h
        subst h
        have hp : ¬ Protected (fun s => L s = true) before t := fun h => by have := hcan.2 h; cases this
        exact .wrap _ _ n _ _ hn hp (explicitLoop_spec L ts _ _ ⟨(by intro h; cases h), fun h => (hno h).elim⟩)
      · rename_i h
        exact .keep _ _ _ _ (.inr (hcan.1 (by simpa using h))) (explicitLoop_spec L ts _ _ ⟨(by intro h; cases h), fun h => (hno h).elim⟩)

/-- **C79**: the command is divided into words and gaps; every word that is a label and not in reach of a `location` is wrapped in
`$(location …)`, with its colon; everything else stays. -/
theorem C79_explicit_labels (L : Bytes → Bool) (s : Bytes) :
    ∃ ts ts', Tokens ts ∧ ts.flatten = s ∧ Explicit (fun s => L s = true) [] ts ts' ∧ explicitLabels L s = ts'.flatten := by
  refine ⟨parts s, _, parts_tokens s, parts_flatten s, explicitLoop_spec L _ [] true ?_, rfl⟩
  refine ⟨(by intro h; cases h), ?_⟩
  rintro ⟨pre, w, mid, h, _⟩
  simp at h

/-- `l` is in a list in attribute `key` -/
def Lists (args : List Expr) (key l : Bytes) : Prop := ∃ s : StringN, Props.ListEdit.InLists (.string s) (attr key args) ∧ s.value = l

/-- `e'` is `e` with the string operands of its concatenation changed as `R` says -/
inductive StringsEdit (R : Bytes → Bytes → Prop) : Expr → Expr → Prop
  | string (s : StringN) (v) : R s.value v → StringsEdit R (.string s) (.string { s with value := v })
  | plus {c x x' p lb y y'} : StringsEdit R x x' → StringsEdit R y y' → StringsEdit R (.binary c x p b!"+" lb y) (.binary c x' p b!"+" lb y')
  | other (e) : (∀ s, e ≠ .string s) → (∀ c x p lb y, e ≠ .binary c x p b!"+" lb y) → StringsEdit R e e

theorem onStrings_edit (f : Bytes → Bytes) (e : Expr) : StringsEdit (fun s s' => s' = f s) e (onStrings f e) := by
  induction e using onStrings.induct with
  | case1 s => exact .string s _ rfl
  | case2 c x p lb y ih1 ih2 => rw [onStrings, if_pos rfl]; exact .plus ih1 ih2
  | case3 c x p o lb y h =>
    rw [onStrings, if_neg h]
    exact .other _ (fun _ h => by cases h) fun _ _ _ _ _ h' => by cases h'; exact h rfl
  | case4 e h1 h2 =>
    have : onStrings f e = e := by
      unfold onStrings; split
      · exact absurd rfl (h1 _)
      · exact absurd rfl (h2 _ _ _ _ _ _)
      · rfl
    rw [this]
    exact .other e h1 fun c x p lb y => h2 c x p b!"+" lb y

theorem stringsEdit_imp {R S : Bytes → Bytes → Prop} (h : ∀ a b, R a b → S a b) {e e' : Expr} (he : StringsEdit R e e') : StringsEdit S e e' := by
  induction he with
  | string s v hv => exact .string s v (h _ _ hv)
  | plus _ _ ih1 ih2 => exact .plus ih1 ih2
  | other e h1 h2 => exact .other e h1 h2

theorem mem_labelsOf (key : Bytes) (args : List Expr) (l : Bytes) : l ∈ labelsOf key args ↔ Lists args key l := by
  unfold labelsOf Lists
  rw [List.mem_filterMap]
  constructor
  · rintro ⟨x, hx, h⟩
    have hx' := (Props.ListEdit.mem_allLists _ x).1 (by simpa [List.mem_flatten] using hx)
    split at h
    · injection h with h; exact ⟨_, hx', h⟩
    · cases h
  · rintro ⟨s, hs, rfl⟩
    refine ⟨.string s, ?_, rfl⟩
    have := (Props.ListEdit.mem_allLists _ _).2 hs
    simpa [List.mem_flatten] using this

/-- the strings of the command get explicit labels, the labels being those of `tools` and `srcs` -/
def ExplicitCmd (args : List Expr) (v v' : Expr) : Prop :=
  StringsEdit (fun s s' => ∃ ts ts', Tokens ts ∧ ts.flatten = s ∧
    Explicit (fun l => Lists args b!"tools" l ∨ Lists args b!"srcs" l) [] ts ts' ∧ s' = ts'.flatten) v v'

/-- **C79**: `genruleFixHeuristicLabels` changes nothing but the `cmd` of a genrule, and there only the strings, as `C79_explicit_labels` says, for the
labels in `tools` and `srcs`. -/
theorem C79_genrule_cmd (c : Comments) (x : Expr) (p : Pos) (args : List Expr) (e : EndN) (a b : Bool) :
    ∃ args', (heuristicLabels (.call c x p args e a b)).1 = .call c x p args' e a b ∧
      (kindOf x ≠ b!"genrule" → args' = args) ∧
      (kindOf x = b!"genrule" → ArgsChange (fun n v v' => n = b!"cmd" ∧ ExplicitCmd args v v') args args' ∧
        ExplicitCmd args (attr b!"cmd" args) (attr b!"cmd" args')) := by
  by_cases hk : kindOf x = b!"genrule"
  · have hL : (fun s => (labelsOf b!"tools" args ++ labelsOf b!"srcs" args).contains s = true) =
        fun l => Lists args b!"tools" l ∨ Lists args b!"srcs" l := by
      funext l
      simp only [List.contains_iff_mem, List.mem_append, mem_labelsOf]
    have hspec : ∀ v, ExplicitCmd args v (onStrings (explicitLabels fun s => (labelsOf b!"tools" args ++ labelsOf b!"srcs" args).contains s) v) := by
      intro v
      refine stringsEdit_imp ?_ (onStrings_edit _ v)
      rintro s _ rfl
      obtain ⟨ts, ts', h1, h2, h3, h4⟩ := C79_explicit_labels (fun s => (labelsOf b!"tools" args ++ labelsOf b!"srcs" args).contains s) s
      rw [hL] at h3
      exact ⟨ts, ts', h1, h2, h3, h4⟩
    refine ⟨onAttr b!"cmd" (onStrings (explicitLabels fun s => (labelsOf b!"tools" args ++ labelsOf b!"srcs" args).contains s)) args, ?_,
      fun h => absurd hk h, fun _ => ⟨?_, ?_⟩⟩
    · unfold heuristicLabels
      rw [if_neg (by rw [kind]; exact fun h => h hk)]
      rfl
    · refine argsChange_trans (argsChange_refl (fun _ _ _ => False) args) (onAttr_change _ _ args) (fun _ _ _ h => h.elim) ?_ (fun _ _ _ _ h => h.elim)
      rintro n v _ ⟨rfl, rfl⟩
      exact ⟨rfl, hspec v⟩
    · rw [attr_onAttr _ _ _ rfl]
      exact hspec _
  · refine ⟨args, ?_, fun _ => rfl, fun h => absurd h hk⟩
    unfold heuristicLabels
    rw [if_pos (by rw [kind]; exact hk)]

example : (heuristicLabels (call b!"genrule" [kw b!"srcs" (lst [str b!"a.in", str b!":b"]), kw b!"cmd" (str b!"cat a.in $(location :b) b > $@")])).1 =
    call b!"genrule" [kw b!"srcs" (lst [str b!"a.in", str b!":b"]), kw b!"cmd" (str b!"cat $(location a.in) $(location :b) $(location :b) > $@")] := by
  rfl

/-- **C79**: only `location` protects a label: other functions, like `execpath`, get a second `$(location …)` inside, and ordinary words of the command
that happen to be the name of a source are wrapped too. -/
theorem C79_execpath_wrapped :
    (heuristicLabels (call b!"genrule" [kw b!"srcs" (lst [str b!":in"]), kw b!"cmd" (str b!"for x in $(execpath :in)")])).1 =
      call b!"genrule" [kw b!"srcs" (lst [str b!":in"]), kw b!"cmd" (str b!"for x $(location :in) $(execpath $(location :in))")] := by
  rfl

/-! ## moveLicenses -/

/-- the statement `name(x)` -/
def IsCallOf (name : Bytes) (stmt x : Expr) : Prop := ∃ c i p e a b, stmt = .call c (.ident i) p [x] e a b ∧ i.name = name

theorem licensesArg_iff (name : Bytes) (stmt x : Expr) : licensesArg name stmt = some x ↔ IsCallOf name stmt x := by
  constructor
  · intro h
    unfold licensesArg at h
    split at h
    · rename_i c i p y e a b
      split at h
      · rename_i hi; injection h with h; subst h; exact ⟨c, i, p, e, a, b, rfl, hi⟩
      · cases h
    · cases h
  · rintro ⟨c, i, p, e, a, b, rfl, hi⟩
    simp [licensesArg, hi]

theorem licensesArg_none (name : Bytes) (stmt : Expr) : (licensesArg name stmt).isNone = true ↔ ¬ ∃ x, IsCallOf name stmt x := by
  cases h : licensesArg name stmt with
  | none =>
    simp only [Option.isNone_none, true_iff]
    rintro ⟨x, hx⟩
    rw [(licensesArg_iff name stmt x).2 hx] at h
    cases h
  | some x => simpa using ⟨x, (licensesArg_iff name stmt x).1 h⟩

open Classical in
/-- the statements other than `name(x)` -/
noncomputable def without (name : Bytes) (stmts : List Expr) : List Expr := stmts.filter fun e => decide (¬ ∃ x, IsCallOf name e x)

theorem kept_eq (name : Bytes) (stmts : List Expr) : stmts.filter (fun e => (licensesArg name e).isNone) = without name stmts := by
  unfold without
  apply List.filter_congr
  intro e _
  rw [Bool.eq_iff_iff, licensesArg_none]
  simp

theorem notPackage_iff (e : Expr) : Rewrite.isFunctionCall e b!"package" = true ↔ ∃ c i p l t a b, e = .call c (.ident i) p l t a b ∧ i.name = b!"package" := by
  unfold Rewrite.isFunctionCall
  split
  · rename_i c i p l t a b
    constructor
    · intro h; exact ⟨_, _, _, _, _, _, _, rfl, by simpa using h⟩
    · rintro ⟨_, _, _, _, _, _, _, h, hi⟩; cases h; simpa using hi
  · rename_i h
    constructor
    · intro h; cases h
    · rintro ⟨_, _, _, _, _, _, _, h', _⟩; exact absurd h' (h _ _ _ _ _ _ _)

/-- **C79**: in a file without `package(...)`, `moveLicenses` deletes the `licenses([...])` statements and puts nothing in their place. -/
theorem C79_licenses_lost (stmts : List Expr)
    (h : ∀ e ∈ stmts, ∀ c i p l t a b, e = .call c (.ident i) p l t a b → i.name ≠ b!"package") :
    (moveLicenses stmts).1 = without b!"licenses" stmts := by
  unfold moveLicenses moveToPackage
  dsimp only
  rw [kept_eq]
  have : existingPackage (without b!"licenses" stmts) = none := by
    unfold existingPackage
    rw [List.findIdx?_eq_none_iff]
    intro e he
    rw [Bool.eq_false_iff]
    intro hp
    obtain ⟨c, i, p, l, t, a, b, rfl, hi⟩ := (notPackage_iff e).1 hp
    exact h _ (List.mem_filter.1 he).1 _ _ _ _ _ _ _ rfl hi
  rw [this]

/-- the file `licenses(["notice"])` -/
example : moveLicenses [call b!"licenses" [lst [str b!"notice"]], call b!"cc_library" []] = ([call b!"cc_library" []], true) := rfl

theorem setDefnComments_attr (key k : Bytes) (c : Comments) : ∀ l, attr k (setDefnComments key c l) = attr k l
  | [] => rfl
  | x :: l => by
    by_cases hx : ∃ c i p o lb r, x = .assign c (.ident i) p o lb r
    · obtain ⟨c', i, p, o, lb, r, rfl⟩ := hx
      rw [setDefnComments]
      split
      · simp only [attr, setDefnComments_attr key k c l]
      · simp only [attr]
    · have hd : ∀ k, ¬ Props.Attr.Defines k x := fun k ⟨c, i, p, o, lb, r, h, _⟩ => hx ⟨c, i, p, o, lb, r, h⟩
      have : setDefnComments key c (x :: l) = x :: setDefnComments key c l := by
        rw [setDefnComments.eq_def]
        split
        · rename_i h; cases h
        · rename_i h; cases h; exact absurd ⟨_, _, _, _, _, _, rfl⟩ hx
        · rename_i h; cases h; rfl
      rw [this, Props.Attr.attr_skip _ _ _ (hd k), Props.Attr.attr_skip _ _ _ (hd k), setDefnComments_attr key k c l]

theorem moveOne_attr (name k : Bytes) (args : List Expr) (stmt : Expr) :
    attr k (moveOne name args stmt) = if k = name then (licensesArg name stmt).getD (attr k args) else attr k args := by
  unfold moveOne
  cases h : licensesArg name stmt with
  | none => simp
  | some x =>
    dsimp only
    rw [setDefnComments_attr]
    split
    · rename_i hk; subst hk; rw [Props.Attr.C27_get_set]; rfl
    · rename_i hk; exact Props.Attr.C27_get_set_other _ _ _ _ hk

theorem moveAll_attr (name k : Bytes) : ∀ (stmts args : List Expr),
    (k ≠ name → attr k (stmts.foldl (moveOne name) args) = attr k args) ∧
    ((∀ e ∈ stmts, ¬ ∃ x, IsCallOf name e x) → attr k (stmts.foldl (moveOne name) args) = attr k args) ∧
    (∀ pre e x post, stmts = pre ++ e :: post → IsCallOf name e x → (∀ e' ∈ post, ¬ ∃ x, IsCallOf name e' x) → k = name →
      attr k (stmts.foldl (moveOne name) args) = x)
  | [], args => ⟨fun _ => rfl, fun _ => rfl, fun pre e x post h => by simp at h⟩
  | s :: stmts, args => by
    have ih := moveAll_attr name k stmts (moveOne name args s)
    rw [List.foldl_cons]
    refine ⟨fun hk => ?_, fun hno => ?_, fun pre e x post h hx hpost hk => ?_⟩
    · rw [ih.1 hk, moveOne_attr, if_neg hk]
    · rw [ih.2.1 fun e he => hno e (by simp [he]), moveOne_attr]
      have : licensesArg name s = none := by
        have := (licensesArg_none name s).2 (hno s (by simp))
        simpa using this
      simp [this]
    · cases pre with
      | nil =>
        simp at h
        obtain ⟨rfl, rfl⟩ := h
        rw [ih.2.1 hpost, moveOne_attr, if_pos hk, (licensesArg_iff name s x).2 hx]
        rfl
      | cons s' pre =>
        simp at h
        obtain ⟨rfl, rfl⟩ := h
        exact ih.2.2 pre e x post rfl hx hpost hk

theorem moved_eq (pre post : List Expr) (c : Comments) (i : IdentN) (p : Pos) (args : List Expr) (e : EndN) (a b : Bool)
    (hi : i.name = b!"package") (hpre : ∀ y ∈ pre, ∀ c i p l e a b, y = .call c (.ident i) p l e a b → i.name ≠ b!"package") :
    (moveLicenses (pre ++ .call c (.ident i) p args e a b :: post)).1 =
      without b!"licenses" pre ++ .call c (.ident i) p ((pre ++ .call c (.ident i) p args e a b :: post).foldl (moveOne b!"licenses") args) e a b ::
        without b!"licenses" post := by
  have hpl : ¬ ∃ x, IsCallOf b!"licenses" (.call c (.ident i) p args e a b) x := by
    rintro ⟨x, c', i', p', e', a', b', h, h'⟩
    cases h
    rw [hi] at h'
    exact absurd h' (by decide)
  have hkept : without b!"licenses" (pre ++ .call c (.ident i) p args e a b :: post) =
      without b!"licenses" pre ++ .call c (.ident i) p args e a b :: without b!"licenses" post := by
    unfold without
    rw [List.filter_append, List.filter_cons]
    simp [hpl]
  have hidx : existingPackage (without b!"licenses" pre ++ .call c (.ident i) p args e a b :: without b!"licenses" post) =
      some (without b!"licenses" pre).length := by
    unfold existingPackage
    rw [List.findIdx?_append]
    have h0 : (without b!"licenses" pre).findIdx? (fun e => Rewrite.isFunctionCall e b!"package") = none := by
      rw [List.findIdx?_eq_none_iff]
      intro y hy
      rw [Bool.eq_false_iff]
      intro hp
      obtain ⟨c, i, p, l, t, a, b, rfl, hi⟩ := (notPackage_iff y).1 hp
      exact hpre _ (List.mem_filter.1 hy).1 _ _ _ _ _ _ _ rfl hi
    rw [h0, List.findIdx?_cons, if_pos ((notPackage_iff _).2 ⟨_, _, _, _, _, _, _, rfl, hi⟩)]
    simp
  unfold moveLicenses moveToPackage
  dsimp only
  rw [kept_eq, hkept, hidx]
  simp [argsOf, setArgs]

/-- **C79**: in a file with a package declaration, the argument of the last `licenses(x)` becomes the attribute `licenses` of the declaration, whose
other attributes keep their values; the `licenses` statements are removed, and every other statement stays as it is and in its place. -/
theorem C79_licenses_moved (pre post : List Expr) (c : Comments) (i : IdentN) (p : Pos) (args : List Expr) (e : EndN) (a b : Bool)
    (hi : i.name = b!"package") (hpre : ∀ y ∈ pre, ∀ c i p l e a b, y = .call c (.ident i) p l e a b → i.name ≠ b!"package") :
    ∃ args', (moveLicenses (pre ++ .call c (.ident i) p args e a b :: post)).1 =
        without b!"licenses" pre ++ .call c (.ident i) p args' e a b :: without b!"licenses" post ∧
      (∀ k, k ≠ b!"licenses" → attr k args' = attr k args) ∧
      ((∀ y ∈ pre ++ post, ¬ ∃ x, IsCallOf b!"licenses" y x) → attr b!"licenses" args' = attr b!"licenses" args) ∧
      (∀ before y x after, pre ++ .call c (.ident i) p args e a b :: post = before ++ y :: after → IsCallOf b!"licenses" y x →
        (∀ z ∈ after, ¬ ∃ x, IsCallOf b!"licenses" z x) → attr b!"licenses" args' = x) := by
  have hpl : ¬ ∃ x, IsCallOf b!"licenses" (.call c (.ident i) p args e a b) x := by
    rintro ⟨x, c', i', p', e', a', b', h, h'⟩
    cases h
    rw [hi] at h'
    exact absurd h' (by decide)
  refine ⟨(pre ++ .call c (.ident i) p args e a b :: post).foldl (moveOne b!"licenses") args, moved_eq pre post c i p args e a b hi hpre, ?_, ?_, ?_⟩
  · intro k hk
    exact (moveAll_attr _ k _ args).1 hk
  · intro hno
    refine (moveAll_attr _ _ _ args).2.1 ?_
    intro y hy
    rcases List.mem_append.1 hy with hy | hy
    · exact hno y (by simp [hy])
    · rcases List.mem_cons.1 hy with rfl | hy
      · exact hpl
      · exact hno y (by simp [hy])
  · intro before y x after h hx hafter
    exact (moveAll_attr _ _ _ args).2.2 before y x after h hx hafter rfl

example : moveLicenses [call b!"licenses" [lst [str b!"notice"]], call b!"package" [kw b!"features" (lst [])], call b!"cc_library" []] =
    ([call b!"package" [kw b!"features" (lst []), kw b!"licenses" (lst [str b!"notice"])], call b!"cc_library" []], true) := rfl

end Verif.Props.FixText
