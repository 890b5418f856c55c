import Verif.Model.Warn
import Verif.Props.Walk
import Verif.Proofs.SortStrings
/-
C58: the warning pipeline. For every table of warnings, every file and every list of enabled warnings: findings come out sorted by line, the order in
which the warnings are enabled does not matter, a finding is reported exactly if it is not disabled by a comment, and in fix mode no
automatically fixable finding is reported.
-/
namespace Verif.Props.Warn
open Verif Verif.Syntax Verif.Walk Verif.Warn

/-! ### Specification -/

/-- one of the comments attached to a node -/
def Has (e : Expr) (c : Comment) : Prop := c ∈ e.comments.before ∨ c ∈ e.comments.suffix ∨ c ∈ e.comments.after

/-- the lower-cased text contains the lower-cased pattern -/
def Mentions (text pattern : Bytes) : Prop := ∃ a b, text.map lowerByte = a ++ pattern.map lowerByte ++ b

/-- the node lies on the line; whole-line comments above and below belong to it -/
def Covers (e : Expr) (line : Nat) : Prop :=
  (match e.comments.before with
    | [] => e.startPos.line ≤ line
    | c :: _ => c.start.line ≤ line) ∧
  (match e.comments.after.reverse with
    | [] => line ≤ e.endPos.line
    | c :: _ => line ≤ (c.start.add c.token).line)

/-- the warning is disabled on the line: a node on this line has a comment that contains `buildifier: disable=` or
`buildozer: disable=` followed by the name of the warning -/
def Suppressed (f : Expr) (line : Nat) (warning : Bytes) : Prop :=
  ∃ stk e, (stk, e) ∈ Walk.occ [] f ∧ Covers e line ∧
    ∃ c, Has e c ∧ (Mentions c.token (b!"buildifier: disable=" ++ warning) ∨ Mentions c.token (b!"buildozer: disable=" ++ warning))

/-- the finding that is shown for what a warning function found -/
def shown (category : Bytes) (w : LF) : Finding :=
  { start := w.start, end_ := w.end_, category := category, message := w.message, url := w.url, autoFixable := !w.replacement.isEmpty }

open Classical in
/-- what a warning should report on a file -/
noncomputable def expected (o : Ops) (f : Expr) (w : Bytes) : List Finding :=
  match o.table w with
  | none => []
  | some fct => ((fct f).1.filter fun x => decide (¬ Suppressed f x.start.line w)).map (shown w)

/-- the files that can come up while warnings run and fixes are applied -/
inductive Reach (o : Ops) (f : Expr) : Expr → Prop
  | start : Reach o f f
  | warning (g w fct) : Reach o f g → o.table w = some fct → Reach o f (fct g).2
  | fix (g r) : Reach o f g → Reach o f (o.fix g r)
  | suggest (g w) : Reach o f g → Reach o f (o.suggest g w).2

/-! ### proofs -/

theorem contains_iff (s p : Bytes) : contains s p = true ↔ ∃ a b, s = a ++ p ++ b := by
  induction s with
  | nil =>
    simp only [contains, List.isEmpty_iff]
    constructor
    · rintro rfl; exact ⟨[], [], rfl⟩
    · rintro ⟨a, b, h⟩
      have := congrArg List.length h
      simp at this
      exact List.eq_nil_of_length_eq_zero (by omega)
  | cons c l ih =>
    simp only [contains, Bool.or_eq_true, List.isPrefixOf_iff_prefix]
    constructor
    · rintro (⟨b, h⟩ | h)
      · exact ⟨[], b, h.symm⟩
      · obtain ⟨a, b, rfl⟩ := ih.1 h
        exact ⟨c :: a, b, by simp⟩
    · rintro ⟨a, b, h⟩
      cases a with
      | nil => exact .inl ⟨b, h.symm⟩
      | cons x a =>
        refine .inr (ih.2 ⟨a, b, ?_⟩)
        simp only [List.cons_append, List.cons.injEq] at h
        exact h.2

theorem hasDisabling_iff (e : Expr) (w : Bytes) : hasDisablingComment e w = true ↔
    ∃ c, Has e c ∧ (Mentions c.token (b!"buildifier: disable=" ++ w) ∨ Mentions c.token (b!"buildozer: disable=" ++ w)) := by
  simp only [hasDisablingComment, Edit.containsComments, Bool.or_eq_true, List.any_eq_true, List.mem_append, contains_iff, toLower, Has, Mentions]
  constructor
  · rintro (⟨c, hc, h⟩ | ⟨c, hc, h⟩)
    · exact ⟨c, by rcases hc with (h | h) | h <;> simp [h], .inl h⟩
    · exact ⟨c, by rcases hc with (h | h) | h <;> simp [h], .inr h⟩
  · rintro ⟨c, hc, h | h⟩
    · exact .inl ⟨c, by rcases hc with h | h | h <;> simp [h], h⟩
    · exact .inr ⟨c, by rcases hc with h | h | h <;> simp [h], h⟩

theorem covers_iff (e : Expr) (line : Nat) : ¬ (line < firstLine e ∨ line > lastLine e) ↔ Covers e line := by
  rw [not_or, Nat.not_lt, Nat.not_lt]
  unfold Covers firstLine lastLine
  rw [List.getLast?_eq_head?_reverse]
  cases e.comments.before <;> cases e.comments.after.reverse <;> rfl

/-- **C58** What it takes to disable a warning on a line. -/
theorem C58_disabled_iff (f : Expr) (line : Nat) (w : Bytes) : disabledWarning f line w = true ↔ Suppressed f line w := by
  unfold disabledWarning Suppressed
  rw [Walk.C26_walk_visits_every_node_once]
  generalize Walk.occ [] f = l
  suffices h : ∀ b : Bool, (l.foldl (fun s p => if line < firstLine p.2 ∨ line > lastLine p.2 then s else if hasDisablingComment p.2 w then true else s) b) = true ↔
      b = true ∨ ∃ stk e, (stk, e) ∈ l ∧ Covers e line ∧
        ∃ c, Has e c ∧ (Mentions c.token (b!"buildifier: disable=" ++ w) ∨ Mentions c.token (b!"buildozer: disable=" ++ w)) by
    rw [h]; simp
  induction l with
  | nil => intro b; simp
  | cons p l ih =>
    intro b
    rw [List.foldl_cons, ih]
    by_cases hc : line < firstLine p.2 ∨ line > lastLine p.2
    · rw [if_pos hc]
      constructor
      · rintro (h | ⟨s, e, h, h'⟩)
        · exact .inl h
        · exact .inr ⟨s, e, List.mem_cons_of_mem _ h, h'⟩
      · rintro (h | ⟨s, e, h, h1, h'⟩)
        · exact .inl h
        · rcases List.mem_cons.1 h with rfl | h
          · exact absurd hc ((covers_iff _ _).2 h1)
          · exact .inr ⟨s, e, h, h1, h'⟩
    · rw [if_neg hc]
      by_cases hd : hasDisablingComment p.2 w = true
      · rw [if_pos hd]
        exact ⟨fun _ => .inr ⟨p.1, p.2, List.mem_cons_self, (covers_iff _ _).1 hc, (hasDisabling_iff _ _).1 hd⟩, fun _ => .inl rfl⟩
      · rw [if_neg hd]
        constructor
        · rintro (h | ⟨s, e, h, h'⟩)
          · exact .inl h
          · exact .inr ⟨s, e, List.mem_cons_of_mem _ h, h'⟩
        · rintro (h | ⟨s, e, h, h1, h'⟩)
          · exact .inl h
          · rcases List.mem_cons.1 h with rfl | h
            · exact absurd ((hasDisabling_iff _ _).2 h') hd
            · exact .inr ⟨s, e, h, h1, h'⟩

theorem runFindings_warn (o : Ops) (cat : Bytes) (f : Expr) (ws : List LF) :
    runFindings o cat .warn f ws = ((ws.filter fun x => !disabledWarning f x.start.line cat).map (shown cat), f) := by
  induction ws with
  | nil => rfl
  | cons w ws ih =>
    unfold runFindings
    cases hd : disabledWarning f w.start.line cat with
    | true => rw [if_pos rfl, ih, List.filter_cons_of_neg (by rw [hd]; simp)]
    | false =>
      rw [if_neg (by simp), List.filter_cons_of_pos (by rw [hd]; rfl), ih]
      cases hw : w.replacement.isEmpty with
      | true => rw [if_pos rfl]; simp [shown, hw]
      | false => rw [if_neg (by simp)]; simp [shown, hw]

open Classical in
theorem filter_spec (f : Expr) (cat : Bytes) (ws : List LF) :
    (ws.filter fun x => !disabledWarning f x.start.line cat) = ws.filter fun x => decide (¬ Suppressed f x.start.line cat) := by
  apply List.filter_congr
  intro x _
  rw [Bool.eq_iff_iff, decide_eq_true_iff, ← C58_disabled_iff]
  cases disabledWarning f x.start.line cat <;> simp

theorem runAll_warn (o : Ops) (hpure : ∀ w fct, o.table w = some fct → ∀ g, (fct g).2 = g) (f : Expr) (ws : List Bytes) (r : List Finding × Expr)
    (h : runAll o .warn f ws = some r) : r = (ws.flatMap (expected o f), f) := by
  induction ws generalizing r with
  | nil => cases h; rfl
  | cons w ws ih =>
    unfold runAll at h
    cases ht : o.table w with
    | none => rw [ht] at h; cases h
    | some fct =>
      rw [ht] at h
      dsimp only at h
      rw [hpure w fct ht f, runFindings_warn] at h
      dsimp only at h
      cases hr : runAll o .warn f ws with
      | none => rw [hr] at h; cases h
      | some s =>
        rw [hr] at h
        cases h
        rw [ih s hr, List.flatMap_cons, filter_spec]
        simp only [expected, ht]

theorem runAll_none (o : Ops) (mode : Mode) (f : Expr) (ws : List Bytes) : runAll o mode f ws = none ↔ ∃ w ∈ ws, o.table w = none := by
  induction ws generalizing f with
  | nil => simp [runAll]
  | cons w ws ih =>
    unfold runAll
    cases ht : o.table w with
    | none => simp [ht]
    | some fct =>
      dsimp only
      have := ih (runFindings o w mode (fct f).2 (fct f).1).2
      cases hr : runAll o mode (runFindings o w mode (fct f).2 (fct f).1).2 ws with
      | none =>
        obtain ⟨w', hw, e⟩ := this.1 hr
        exact ⟨fun _ => ⟨w', List.mem_cons_of_mem _ hw, e⟩, fun _ => rfl⟩
      | some s =>
        constructor
        · intro h; cases h
        · rintro ⟨w', hw, e⟩
          rcases List.mem_cons.1 hw with rfl | hw
          · rw [ht] at e; cases e
          · rw [this.2 ⟨w', hw, e⟩] at hr; cases hr

/-- the invariant of all modes -/
structure Good (o : Ops) (f0 : Expr) (mode : Mode) (r : List Finding × Expr) : Prop where
  reach : Reach o f0 r.2
  fixable : mode = .fix → ∀ x ∈ r.1, x.autoFixable = false
  live : ∀ x ∈ r.1, ∃ g, Reach o f0 g ∧ ¬ Suppressed g x.start.line x.category
  repl : ∀ x ∈ r.1, x.replacement.isSome = true ↔ mode = .suggest ∧ x.autoFixable = true

theorem good_cons {o f0 mode r} (h : Good o f0 mode r) (x : Finding) (h1 : mode = .fix → x.autoFixable = false)
    (h2 : ∃ g, Reach o f0 g ∧ ¬ Suppressed g x.start.line x.category) (h3 : x.replacement.isSome = true ↔ mode = .suggest ∧ x.autoFixable = true) :
    Good o f0 mode (x :: r.1, r.2) := by
  refine ⟨h.reach, ?_, ?_, ?_⟩
  · intro hm y hy
    rcases List.mem_cons.1 hy with rfl | hy
    · exact h1 hm
    · exact h.fixable hm y hy
  · intro y hy
    rcases List.mem_cons.1 hy with rfl | hy
    · exact h2
    · exact h.live y hy
  · intro y hy
    rcases List.mem_cons.1 hy with rfl | hy
    · exact h3
    · exact h.repl y hy

theorem runFindings_good (o : Ops) (f0 : Expr) (cat : Bytes) (mode : Mode) (ws : List LF) : ∀ f, Reach o f0 f → Good o f0 mode (runFindings o cat mode f ws) := by
  induction ws with
  | nil => intro f h; exact ⟨h, fun _ _ h => (nomatch h), fun _ h => (nomatch h), fun _ h => (nomatch h)⟩
  | cons w ws ih =>
    intro f hf
    unfold runFindings
    by_cases hd : disabledWarning f w.start.line cat = true
    · rw [if_pos hd]; exact ih f hf
    · rw [if_neg hd]
      have hs : ¬ Suppressed f w.start.line cat := fun h => hd ((C58_disabled_iff _ _ _).2 h)
      cases hw : w.replacement.isEmpty with
      | true =>
        rw [if_pos rfl]
        exact good_cons (ih f hf) _ (fun _ => rfl) ⟨f, hf, hs⟩ (by simp)
      | false =>
        rw [if_neg (by simp)]
        cases mode with
        | fix => exact ih _ (.fix _ _ hf)
        | suggest => exact good_cons (ih _ (.suggest _ _ hf)) _ nofun ⟨f, hf, hs⟩ (by simp)
        | warn => exact good_cons (ih f hf) _ nofun ⟨f, hf, hs⟩ (by simp)

theorem runAll_good (o : Ops) (f0 : Expr) (mode : Mode) (ws : List Bytes) : ∀ f, Reach o f0 f → ∀ r, runAll o mode f ws = some r → Good o f0 mode r := by
  induction ws with
  | nil => intro f h r e; cases e; exact ⟨h, fun _ _ h => (nomatch h), fun _ h => (nomatch h), fun _ h => (nomatch h)⟩
  | cons w ws ih =>
    intro f hf r h
    unfold runAll at h
    cases ht : o.table w with
    | none => rw [ht] at h; cases h
    | some fct =>
      rw [ht] at h
      dsimp only at h
      have h1 := runFindings_good o f0 w mode (fct f).1 _ (.warning f w fct hf ht)
      cases hr : runAll o mode (runFindings o w mode (fct f).2 (fct f).1).2 ws with
      | none => rw [hr] at h; cases h
      | some s =>
        rw [hr] at h
        cases h
        have h2 := ih _ h1.reach s hr
        refine ⟨h2.reach, ?_, ?_, ?_⟩
        · intro hm x hx
          rcases List.mem_append.1 hx with hx | hx
          · exact h1.fixable hm x hx
          · exact h2.fixable hm x hx
        · intro x hx
          rcases List.mem_append.1 hx with hx | hx
          · exact h1.live x hx
          · exact h2.live x hx
        · intro x hx
          rcases List.mem_append.1 hx with hx | hx
          · exact h1.repl x hx
          · exact h2.repl x hx

theorem srt_perm {srt : List Bytes → List Bytes} (h : Rewrite.Sorts strLess srt) {l l' : List Bytes} (hp : l.Perm l') : srt l = srt l' := by
  refine sortedPerm_unique (less := strLess) (l := l) ?_ (h l) ⟨(h l').1.trans hp.symm, (h l').2⟩
  intro a _ b _ h1 h2
  apply Classical.byContradiction
  intro e
  rcases strLess_total.total a b e with h | h
  · rw [h] at h1; cases h1
  · rw [h] at h2; cases h2

/-! ### the theorems -/

/-- **C58** The findings are sorted by line, in every mode. -/
theorem C58_sorted (srtS srtF) (hF : Rewrite.Sorts lineLess srtF) (prepare : Expr → Expr) (o : Ops) (f : Expr) (enabled : List Bytes) (formatted : Bool)
    (mode : Mode) (fs : List Finding) (f' : Expr) (h : fileWarnings srtS srtF prepare o f enabled formatted mode = some (fs, f')) :
    fs.Pairwise fun a b => a.start.line ≤ b.start.line := by
  unfold fileWarnings at h
  dsimp only at h
  split at h
  · cases h
  · rename_i r _
    cases h
    exact (hF r.1).2.imp fun h => by simpa [lineLess] using h

/-- **C58** The order in which warnings are enabled makes no difference, to the findings or to the file, in any mode. -/
theorem C58_order (srtS srtF) (hS : Rewrite.Sorts strLess srtS) (prepare : Expr → Expr) (o : Ops) (f : Expr) (enabled enabled' : List Bytes)
    (hp : enabled.Perm enabled') (formatted : Bool) (mode : Mode) :
    fileWarnings srtS srtF prepare o f enabled formatted mode = fileWarnings srtS srtF prepare o f enabled' formatted mode := by
  unfold fileWarnings
  rw [srt_perm hS hp]

/-- **C58** Without fixing, warning functions that only read the file report exactly the findings that are not disabled, each as often as it was found and once
for every time the warning is enabled, and the file stays as it is. -/
theorem C58_warn_exact (srtS srtF) (hS : Rewrite.Sorts strLess srtS) (hF : Rewrite.Sorts lineLess srtF) (prepare : Expr → Expr) (o : Ops)
    (hpure : ∀ w fct, o.table w = some fct → ∀ g, (fct g).2 = g) (f : Expr) (enabled : List Bytes) (formatted : Bool) (fs : List Finding) (f' : Expr)
    (h : fileWarnings srtS srtF prepare o f enabled formatted .warn = some (fs, f')) :
    f' = f ∧ fs.Perm (enabled.flatMap (expected o f)) := by
  unfold fileWarnings at h
  rw [if_neg (by simp)] at h
  dsimp only at h
  cases hr : runAll o .warn f (srtS enabled) with
  | none => rw [hr] at h; cases h
  | some r =>
    rw [hr] at h
    cases h
    have := runAll_warn o hpure f _ r hr
    subst this
    exact ⟨rfl, ((hF _).1).trans ((hS enabled).1.flatMap_right _)⟩

/-- **C58** In every mode, whatever the warning functions and fixes do to the file: a reported finding was not disabled in the file at that time; in fix mode no
fixable finding is reported; a suggestion is attached exactly to the fixable findings in suggest mode. -/
theorem C58_reported (srtS srtF) (hF : Rewrite.Sorts lineLess srtF) (prepare : Expr → Expr) (o : Ops) (f : Expr) (enabled : List Bytes) (formatted : Bool)
    (mode : Mode) (fs : List Finding) (f' : Expr) (h : fileWarnings srtS srtF prepare o f enabled formatted mode = some (fs, f')) (x : Finding) (hx : x ∈ fs) :
    (∃ g, Reach o (if mode = .suggest ∧ formatted = false then prepare f else f) g ∧ ¬ Suppressed g x.start.line x.category) ∧
    (mode = .fix → x.autoFixable = false) ∧ (x.replacement.isSome = true ↔ mode = .suggest ∧ x.autoFixable = true) := by
  unfold fileWarnings at h
  dsimp only at h
  generalize hg : (if mode = .suggest ∧ formatted = false then prepare f else f) = f1 at h ⊢
  cases hr : runAll o mode f1 (srtS enabled) with
  | none => rw [hr] at h; cases h
  | some r =>
    rw [hr] at h
    cases h
    have hx' := (hF r.1).1.mem_iff.1 hx
    have := runAll_good o f1 mode _ f1 .start r hr
    exact ⟨this.live x hx', fun hm => this.fixable hm x hx', this.repl x hx'⟩

/-- **C58** The run is abandoned exactly if a warning is unknown. -/
theorem C58_unknown (srtS srtF) (hS : Rewrite.Sorts strLess srtS) (prepare : Expr → Expr) (o : Ops) (f : Expr) (enabled : List Bytes) (formatted : Bool)
    (mode : Mode) : fileWarnings srtS srtF prepare o f enabled formatted mode = none ↔ ∃ w ∈ enabled, o.table w = none := by
  unfold fileWarnings
  dsimp only
  generalize (if mode = .suggest ∧ formatted = false then prepare f else f) = f1
  have h : (∃ w ∈ srtS enabled, o.table w = none) ↔ ∃ w ∈ enabled, o.table w = none := by
    constructor <;> rintro ⟨w, hw, e⟩
    · exact ⟨w, (hS enabled).1.mem_iff.1 hw, e⟩
    · exact ⟨w, (hS enabled).1.mem_iff.2 hw, e⟩
  rw [← h, ← runAll_none o mode f1]
  cases runAll o mode f1 (srtS enabled) <;> simp

/-! ### a file with a disabled, a fixable and a plain finding -/

/-- `x = 1  # buildifier: disable=function-docstring-args` -/
def exStmt : Expr := .assign {} (.ident { namePos := ⟨1, 1, 0⟩, name := b!"x" }) ⟨1, 3, 2⟩ b!"=" false
  (.literal { suffix := [⟨⟨1, 8, 7⟩, b!"# Buildifier: disable=function-docstring-args"⟩] } ⟨1, 5, 4⟩ b!"1")

/-- a file with this statement and another one on line 3 -/
def exFile : Expr := .file {} [exStmt, .ident { namePos := ⟨3, 1, 50⟩, name := b!"y" }]

/-- each warning reports something fixable on line 1 and something else on line 3 -/
def exOps : Ops where
  table w := if w = b!"zzz" then none else some fun f => ([⟨⟨3, 1, 50⟩, ⟨3, 1, 51⟩, w, [], []⟩, ⟨⟨1, 1, 0⟩, ⟨1, 2, 1⟩, w, [], [(0, .nil)]⟩], f)
  fix f _ := f
  suggest f _ := (⟨[], 0, 0, []⟩, f)

/-- lines and categories of the findings -/
def brief (r : Option (List Finding × Expr)) : Option (List (Nat × Bytes)) := r.map fun r => r.1.map fun x => (x.start.line, x.category)

example : brief (fileWarnings (sortBy strLess) (sortBy lineLess) id exOps exFile [b!"print", b!"load"] true .warn)
    = some [(1, b!"load"), (1, b!"print"), (3, b!"load"), (3, b!"print")] := by decide +kernel
example : brief (fileWarnings (sortBy strLess) (sortBy lineLess) id exOps exFile [b!"print", b!"load"] true .fix)
    = some [(3, b!"load"), (3, b!"print")] := by decide +kernel
example : brief (fileWarnings (sortBy strLess) (sortBy lineLess) id exOps exFile [b!"function-docstring-args"] true .warn)
    = some [(3, b!"function-docstring-args")] := by decide +kernel
example : brief (fileWarnings (sortBy strLess) (sortBy lineLess) id exOps exFile [b!"load", b!"zzz"] true .warn) = none := by decide +kernel

/-- **C58** Disabling a warning also disables every warning whose name is a prefix of its name: here `function-docstring-args` and
`function-docstring`. -/
theorem C58_prefix_witness : brief (fileWarnings (sortBy strLess) (sortBy lineLess) id exOps exFile [b!"function-docstring"] true .warn)
    = some [(3, b!"function-docstring")] := by decide +kernel

end Verif.Props.Warn
