import Verif.Model.Fix
import Verif.Proofs.SortStrings
import Verif.Props.Labels
import Verif.Props.ListEdit
import Verif.Props.Attr
import Verif.Props.Warn
/-
C78: the fixes of `buildozer fix` that work on the attributes of a rule (edit/fix.go).
-/
namespace Verif.Props.Fix
open Verif Verif.Syntax Verif.Walk Verif.Edit Verif.Fix

/-! ## Specification -/

/-- a space, as `strings.Fields` understands it (ASCII) -/
def Blank (c : UInt8) : Prop := c = 9 ∨ c = 10 ∨ c = 11 ∨ c = 12 ∨ c = 13 ∨ c = 32

/-- `ws` are the words of `s`: its maximal parts without spaces, from left to right -/
inductive Words : Bytes → List Bytes → Prop
  | none (s) : (∀ c ∈ s, Blank c) → Words s []
  | word (gap w rest ws) : (∀ c ∈ gap, Blank c) → w ≠ [] → (∀ c ∈ w, ¬ Blank c) → (∀ c ∈ rest.head?, Blank c) → Words rest ws →
      Words (gap ++ w ++ rest) (w :: ws)

/-- `p` occurs in `s` -/
def Has (s p : Bytes) : Prop := ∃ a b, s = a ++ p ++ b

/-- an option that is not split: it has no space, or it has an apostrophe directly followed by a quote, or it has a `$(location` -/
def KeptWhole (s : Bytes) : Prop := ¬ Has s b!" " ∨ Has s b!"'\"" ∨ Has s b!"$(location"

/-- what an element of a list of options becomes: strings are split into words, the comments stay with the first word -/
inductive SplitOf : Expr → List Expr → Prop
  | other (e) : (∀ s, e ≠ .string s) → SplitOf e [e]
  | whole (s : StringN) : KeptWhole s.value → SplitOf (.string s) [.string s]
  | blank (s : StringN) : ¬ KeptWhole s.value → Words s.value [] → SplitOf (.string s) []
  | words (s : StringN) (w ws) : ¬ KeptWhole s.value → Words s.value (w :: ws) →
      SplitOf (.string s) (.string { value := w, comments := s.comments } :: ws.map fun w => .string { value := w })

/-- only the values of keyword arguments change, as `P` says for the name, the old and the new value -/
def ArgsChange (P : Bytes → Expr → Expr → Prop) (args args' : List Expr) : Prop :=
  Forall2 (fun a a' => a' = a ∨ ∃ c i p o lb r r', a = .assign c (.ident i) p o lb r ∧ a' = .assign c (.ident i) p o lb r' ∧ P i.name r r') args args'

/-! ## Attributes -/

theorem eq_nil {v : Expr} (h : v.isNil = true) : v = .nil := by cases v <;> first | rfl | exact absurd h (by simp [Expr.isNil])

theorem attr_onAttr (key : Bytes) (f : Expr → Expr) (args : List Expr) (hf : f .nil = .nil) : attr key (onAttr key f args) = f (attr key args) := by
  unfold onAttr
  split
  · rename_i h
    rw [eq_nil h, hf]
  · rw [Props.Attr.C27_get_set]

theorem attr_onAttr_other (key key' : Bytes) (f : Expr → Expr) (args : List Expr) (h : key' ≠ key) : attr key' (onAttr key f args) = attr key' args := by
  unfold onAttr
  split
  · rfl
  · rw [Props.Attr.C27_get_set_other _ _ _ _ h]

theorem onLists_nil (f : List Expr → List Expr) : onLists f .nil = .nil := rfl

theorem argsChange_refl (P : Bytes → Expr → Expr → Prop) (l : List Expr) : ArgsChange P l l := by
  induction l with
  | nil => exact .nil
  | cons x l ih => exact .cons (.inl rfl) ih

theorem argsChange_trans {P Q R : Bytes → Expr → Expr → Prop} {a b c : List Expr} (h1 : ArgsChange P a b) (h2 : ArgsChange Q b c)
    (hp : ∀ n x y, P n x y → R n x y) (hq : ∀ n x y, Q n x y → R n x y) (hpq : ∀ n x y z, P n x y → Q n y z → R n x z) : ArgsChange R a c := by
  induction h1 generalizing c with
  | nil => cases h2; exact .nil
  | @cons a' b' l k hab _ ih =>
    cases h2 with
    | @cons _ c' _ m hbc hrest =>
      refine .cons ?_ (ih hrest)
      rcases hab with rfl | ⟨c1, i, p, o, lb, r, r', rfl, rfl, h⟩
      · rcases hbc with rfl | ⟨c1, i, p, o, lb, r, r', rfl, rfl, h⟩
        · exact .inl rfl
        · exact .inr ⟨c1, i, p, o, lb, r, r', rfl, rfl, hq _ _ _ h⟩
      · rcases hbc with rfl | ⟨c2, i2, p2, o2, lb2, r2, r2', h2, rfl, h'⟩
        · exact .inr ⟨c1, i, p, o, lb, r, r', rfl, rfl, hp _ _ _ h⟩
        · cases h2
          exact .inr ⟨c1, i, p, o, lb, r, r2', rfl, rfl, hpq _ _ _ _ h h'⟩

theorem setFirst_change (key : Bytes) (f : Expr → Expr) : ∀ l l', setFirst key (f (attr key l)) l = some l' →
    ArgsChange (fun n r r' => n = key ∧ r' = f r) l l'
  | [], l', h => by simp [setFirst] at h
  | x :: l, l', h => by
    by_cases hx : ∃ c i p o lb r, x = .assign c (.ident i) p o lb r
    · obtain ⟨c, i, p, o, lb, r, rfl⟩ := hx
      rw [setFirst, attr] at h
      split at h
      · cases hs : setFirst key (f (attr key l)) l with
        | none => simp [hs] at h
        | some l1 =>
          simp [hs] at h
          subst h
          exact .cons (.inl rfl) (setFirst_change key f l l1 hs)
      · rename_i hk
        simp at h
        subst h
        exact .cons (.inr ⟨c, i, p, o, lb, r, f r, rfl, rfl, Classical.not_not.1 hk, rfl⟩) (argsChange_refl (fun n r r' => n = key ∧ r' = f r) l)
    · have hd : ¬ Props.Attr.Defines key x := fun ⟨c, i, p, o, lb, r, h, _⟩ => hx ⟨c, i, p, o, lb, r, h⟩
      rw [Props.Attr.setFirst_skip _ _ _ _ hd, Props.Attr.attr_skip _ _ _ hd] at h
      cases hs : setFirst key (f (attr key l)) l with
      | none => simp [hs] at h
      | some l1 =>
        simp [hs] at h
        subst h
        exact .cons (.inl rfl) (setFirst_change key f l l1 hs)

theorem setFirst_none (key : Bytes) (v : Expr) : ∀ l, setFirst key v l = none → attr key l = .nil
  | [], _ => rfl
  | x :: l, h => by
    by_cases hx : ∃ c i p o lb r, x = .assign c (.ident i) p o lb r
    · obtain ⟨c, i, p, o, lb, r, rfl⟩ := hx
      rw [setFirst] at h
      rw [attr]
      split at h
      · rw [if_pos (by assumption)]
        cases hs : setFirst key v l with
        | none => exact setFirst_none key v l hs
        | some l1 => simp [hs] at h
      · simp at h
    · have hd : ¬ Props.Attr.Defines key x := fun ⟨c, i, p, o, lb, r, h, _⟩ => hx ⟨c, i, p, o, lb, r, h⟩
      rw [Props.Attr.setFirst_skip _ _ _ _ hd] at h
      rw [Props.Attr.attr_skip _ _ _ hd]
      cases hs : setFirst key v l with
      | none => exact setFirst_none key v l hs
      | some l1 => simp [hs] at h

theorem onAttr_change (key : Bytes) (f : Expr → Expr) (args : List Expr) : ArgsChange (fun n r r' => n = key ∧ r' = f r) args (onAttr key f args) := by
  unfold onAttr
  split
  · exact argsChange_refl _ _
  · rename_i h
    unfold setAttr
    cases hs : setFirst key (f (attr key args)) args with
    | none => rw [setFirst_none _ _ _ hs] at h; exact absurd rfl h
    | some l' => exact setFirst_change key f args l' hs

theorem onLists_edit (f : List Expr → List Expr) (e : Expr) : Props.ListEdit.ListsEdit (fun l l' => l' = f l) (fun l l' => l' = l) e (onLists f e) := by
  have h := Props.ListEdit.both_edit f id e
  rw [Props.ListEdit.onSelects_id] at h
  exact h

/-! ## Splitting options -/

theorem blank_iff (c : UInt8) : Buildozer.isSpaceByte c = true ↔ Blank c := by
  have : ∀ c : UInt8, (Buildozer.isSpaceByte c = true ↔ Blank c) := by
    intro c
    simp only [Buildozer.isSpaceByte, Blank, Bool.or_eq_true, Bool.and_eq_true, beq_iff_eq, decide_eq_true_eq, UInt8.le_iff_toNat_le, ← UInt8.toNat_inj]
    have : c.toNat < 256 := UInt8.toNat_lt c
    simp
    omega
  exact this c

theorem words_gap (c : UInt8) (hc : Blank c) {s ws} (h : Words s ws) : Words (c :: s) ws := by
  cases h with
  | none _ hs => exact .none _ (by intro d hd; exact (List.mem_cons.1 hd).elim (fun h => h ▸ hc) fun hd => hs d hd)
  | word gap w rest ws h1 h2 h3 h4 h5 =>
    exact .word (c :: gap) w rest ws (by intro d hd; exact (List.mem_cons.1 hd).elim (fun h => h ▸ hc) fun hd => h1 d hd) h2 h3 h4 h5

theorem fieldsFrom_words : ∀ (s cur : Bytes), (∀ c ∈ cur, ¬ Blank c) → Words (cur.reverse ++ s) (fieldsFrom cur s)
  | [], cur, hc => by
    rw [fieldsFrom]
    split
    · subst cur; exact .none _ (by simp)
    · exact .word [] cur.reverse [] [] (by simp) (by simpa) (by simpa using hc) (by simp) (.none _ (by simp))
  | c :: s, cur, hc => by
    rw [fieldsFrom]
    split
    · rename_i hb
      rw [blank_iff] at hb
      have ih := words_gap c hb (fieldsFrom_words s [] (by simp))
      split
      · subst cur
        exact ih
      · exact .word [] cur.reverse (c :: s) _ (by simp) (by simpa) (by simpa using hc) (by simpa using hb) ih
    · rename_i hb
      rw [blank_iff] at hb
      have ih := fieldsFrom_words s (c :: cur) (by intro d hd; exact (List.mem_cons.1 hd).elim (fun h => h ▸ hb) fun hd => hc d hd)
      simpa using ih

theorem fields_words (s : Bytes) : Words s (fields s) := fieldsFrom_words s [] (by simp)

theorem splittable_iff (s : Bytes) : splittable s = true ↔ ¬ KeptWhole s := by
  simp only [splittable, KeptWhole, Bool.and_eq_true, Bool.not_eq_true', Has, ← Props.Warn.contains_iff, not_or, Classical.not_not]
  simp [and_assoc]

theorem splitElem_spec (e : Expr) : SplitOf e (splitElem e) := by
  by_cases h : ∃ s, e = .string s
  · obtain ⟨s, rfl⟩ := h
    rw [splitElem]
    split
    · rename_i hs
      rw [splittable_iff] at hs
      have hw := fields_words s.value
      cases hf : fields s.value with
      | nil => rw [hf] at hw; exact .blank s hs hw
      | cons w ws => rw [hf] at hw; exact .words s w ws hs hw
    · rename_i hs
      rw [splittable_iff, Classical.not_not] at hs
      exact .whole s hs
  · have : splitElem e = [e] := by
      cases e <;> first | rfl | exact absurd ⟨_, rfl⟩ h
    rw [this]
    exact .other e fun s hs => h ⟨s, hs⟩

theorem splitStrings_spec (l : List Expr) : ∃ ess, Forall2 SplitOf l ess ∧ splitStrings l = ess.flatten := by
  refine ⟨l.map splitElem, ?_, by simp [splitStrings, List.flatMap]⟩
  induction l with
  | nil => exact .nil
  | cons x l ih => exact .cons (splitElem_spec x) ih

/-- the list operands of the value are split, nothing else changes -/
def SplitValue (v v' : Expr) : Prop :=
  Props.ListEdit.ListsEdit (fun l l' => ∃ ess, Forall2 SplitOf l ess ∧ l' = ess.flatten) (fun l l' => l' = l) v v'

theorem splitValue_onLists (v : Expr) : SplitValue v (onLists splitStrings v) :=
  (onLists_edit splitStrings v).imp (fun l _ h => h ▸ splitStrings_spec l) fun _ _ h => h

theorem ne_opts : (b!"copts" : Bytes) ≠ b!"linkopts" := by decide

/-- **C78**: `splitOptions` splits the strings of the lists in `copts` and `linkopts` into words and changes nothing else. -/
theorem C78_split_options (c : Comments) (x : Expr) (p : Pos) (args : List Expr) (e : EndN) (a b : Bool) :
    ∃ args', (splitOptions (.call c x p args e a b)).1 = .call c x p args' e a b ∧
      ArgsChange (fun n v v' => (n = b!"copts" ∨ n = b!"linkopts") ∧ SplitValue v v') args args' ∧
      SplitValue (attr b!"copts" args) (attr b!"copts" args') ∧ SplitValue (attr b!"linkopts" args) (attr b!"linkopts" args') := by
  refine ⟨splitArgs args, rfl, ?_, ?_, ?_⟩
  · refine argsChange_trans (onAttr_change _ _ args) (onAttr_change _ _ _) ?_ ?_ ?_
    · rintro n v v' ⟨rfl, rfl⟩; exact ⟨.inl rfl, splitValue_onLists v⟩
    · rintro n v v' ⟨rfl, rfl⟩; exact ⟨.inr rfl, splitValue_onLists v⟩
    · rintro n v v' v'' ⟨h1, _⟩ ⟨h2, _⟩
      exact absurd (h1.symm.trans h2) ne_opts
  · show SplitValue _ (attr b!"copts" (onAttr b!"linkopts" _ (onAttr b!"copts" _ args)))
    rw [attr_onAttr_other _ _ _ _ ne_opts, attr_onAttr _ _ _ (onLists_nil _)]
    exact splitValue_onLists _
  · show SplitValue _ (attr b!"linkopts" (onAttr b!"linkopts" _ (onAttr b!"copts" _ args)))
    rw [attr_onAttr _ _ _ (onLists_nil _), attr_onAttr_other _ _ _ _ ne_opts.symm]
    exact splitValue_onLists _

theorem splits_iff (x : Expr) : splits x = true ↔ ∃ s, x = .string s ∧ ¬ KeptWhole s.value := by
  cases x <;> simp [splits, splittable_iff]

theorem any_lists (f : Expr → Bool) (v : Expr) : (allLists v).flatten.any f = true ↔ ∃ x, Props.ListEdit.InLists x v ∧ f x = true := by
  simp only [List.any_eq_true, List.mem_flatten, ← Props.ListEdit.mem_allLists]

/-- **C78**: `splitOptions` reports a fix iff one of these lists has a string that is to be split. -/
theorem C78_split_reported (c : Comments) (x : Expr) (p : Pos) (args : List Expr) (e : EndN) (a b : Bool) :
    (splitOptions (.call c x p args e a b)).2 = true ↔ ∃ (s : StringN) (n : Bytes), (n = b!"copts" ∨ n = b!"linkopts") ∧
      Props.ListEdit.InLists (.string s) (attr n args) ∧ ¬ KeptWhole s.value := by
  simp only [splitOptions, List.any_cons, List.any_nil, Bool.or_false, Bool.or_eq_true, any_lists, argsOf, splits_iff]
  constructor
  · rintro (⟨y, h, s, rfl, hs⟩ | ⟨y, h, s, rfl, hs⟩)
    · exact ⟨s, _, .inl rfl, h, hs⟩
    · exact ⟨s, _, .inr rfl, h, hs⟩
  · rintro ⟨s, n, rfl | rfl, h, hs⟩
    · exact .inl ⟨_, h, s, rfl, hs⟩
    · exact .inr ⟨_, h, s, rfl, hs⟩

theorem words_no_blank {s ws} (h : Words s ws) : ∀ w ∈ ws, ∀ c ∈ w, ¬ Blank c := by
  induction h with
  | none => simp
  | word gap w rest ws h1 h2 h3 h4 h5 ih =>
    intro v hv
    rcases List.mem_cons.1 hv with rfl | hv
    · exact h3
    · exact ih v hv

theorem kept_word {w : Bytes} (h : ∀ c ∈ w, ¬ Blank c) : KeptWhole w := by
  refine .inl ?_
  rintro ⟨a, b, rfl⟩
  refine h 32 ?_ (by simp [Blank])
  show (32 : UInt8) ∈ a ++ [32] ++ b
  simp

theorem splitElem_done (e : Expr) : ∀ x ∈ splitElem e, splits x = false := by
  intro x hx
  rw [Bool.eq_false_iff]
  intro hs
  obtain ⟨s, rfl, hk⟩ := (splits_iff x).1 hs
  have h := splitElem_spec e
  generalize splitElem e = l at h hx
  cases h with
  | other _ h => simp at hx; exact h s hx.symm
  | whole t ht => simp at hx; exact hk (hx ▸ ht)
  | blank => simp at hx
  | words t w ws _ hw =>
    have hn := words_no_blank hw
    rcases List.mem_cons.1 hx with hx | hx
    · cases hx; exact hk (kept_word (hn _ (by simp)))
    · obtain ⟨v, hv, hx⟩ := List.mem_map.1 hx
      cases hx
      exact hk (kept_word (hn v (by simp [hv])))

theorem allLists_onLists (f : List Expr → List Expr) (v : Expr) : allLists (onLists f v) = (allLists v).map f := by
  induction v using onLists.induct with
  | case1 => rfl
  | case2 c x p lb y ih1 ih2 => simp [onLists, allLists, ih1, ih2]
  | case3 c x p o lb y h => simp [onLists, allLists, h]
  | case4 e h1 h2 =>
    unfold onLists; split
    · exact absurd rfl (h1 _ _ _ _ _)
    · exact absurd rfl (h2 _ _ _ _ _ _)
    · unfold allLists; split
      · exact absurd rfl (h1 _ _ _ _ _)
      · exact absurd rfl (h2 _ _ _ _ _ _)
      · rfl

/-- **C78**: one run of `splitOptions` is enough. -/
theorem C78_split_once (c : Comments) (x : Expr) (p : Pos) (args : List Expr) (e : EndN) (a b : Bool) :
    (splitOptions (splitOptions (.call c x p args e a b)).1).2 = false := by
  have key : ∀ v, (allLists (onLists splitStrings v)).flatten.any splits = false := by
    intro v
    rw [allLists_onLists, Bool.eq_false_iff]
    simp only [ne_eq, List.any_eq_true, not_exists, not_and, List.mem_flatten, List.mem_map]
    rintro y ⟨l, ⟨k, hk, rfl⟩, hy⟩
    obtain ⟨z, hz, hy⟩ := List.mem_flatMap.1 hy
    simp [splitElem_done z y hy]
  show ([b!"copts", b!"linkopts"].any fun name => (allLists (attr name (splitArgs args))).flatten.any splits) = false
  simp only [List.any_cons, List.any_nil, Bool.or_false, Bool.or_eq_false_iff]
  constructor
  · show (allLists (attr b!"copts" (onAttr b!"linkopts" _ (onAttr b!"copts" _ args)))).flatten.any splits = false
    rw [attr_onAttr_other _ _ _ _ ne_opts, attr_onAttr _ _ _ (onLists_nil _)]
    exact key _
  · show (allLists (attr b!"linkopts" (onAttr b!"linkopts" _ (onAttr b!"copts" _ args)))).flatten.any splits = false
    rw [attr_onAttr _ _ _ (onLists_nil _)]
    exact key _

def str (s : Bytes) : Expr := .string { value := s }
def lst (l : List Expr) : Expr := .list {} {} l {} false
def kw (n : Bytes) (v : Expr) : Expr := .assign {} (.ident { name := n }) {} b!"=" false v
def call (n : Bytes) (l : List Expr) : Expr := .call {} (.ident { name := n }) {} l {} false false

example : splitOptions (call b!"cc_library" [kw b!"name" (str b!"a b"), kw b!"copts" (lst [str b!"-Dfoo  -Dbar", str b!"-x"])]) =
    (call b!"cc_library" [kw b!"name" (str b!"a b"), kw b!"copts" (lst [str b!"-Dfoo", str b!"-Dbar", str b!"-x"])], true) := rfl

/-- **C78**: an option with a quoted space is split as well; the test for quotes only recognises an apostrophe directly followed by a quote. -/
theorem C78_split_quoted :
    (splitOptions (call b!"cc_library" [kw b!"copts" (lst [str b!"-DX=\"a b\"", str b!"-DY='a b'"])])).1 =
      call b!"cc_library" [kw b!"copts" (lst [str b!"-DX=\"a", str b!"b\"", str b!"-DY='a", str b!"b'"])] := rfl

/-! ## Shortening labels -/

/-- what an element of a list of labels becomes: a string keeps everything but its text, which denotes the same target (if it is an ordinary label,
see C05) -/
inductive ShortOf (pkg : Bytes) : Expr → Expr → Prop
  | other (e) : (∀ s, e ≠ .string s) → ShortOf pkg e e
  | label (s : StringN) (v) : ((¬ ∀ c ∈ s.value, c = c!"@") → (Labels.parse s.value).target.head? ≠ some c!":" →
      Props.Labels.denotes v pkg = Props.Labels.denotes s.value pkg) → ShortOf pkg (.string s) (.string { s with value := v })

/-- the list operands of the value have their labels shortened, nothing else changes -/
def ShortValue (pkg : Bytes) (v v' : Expr) : Prop :=
  Props.ListEdit.ListsEdit (Forall2 (ShortOf pkg)) (fun l l' => l' = l) v v'

theorem shortElem_spec (pkg : Bytes) (e : Expr) : ShortOf pkg e (shortenElem pkg e) := by
  by_cases h : ∃ s, e = .string s
  · obtain ⟨s, rfl⟩ := h
    exact .label s _ fun h1 h2 => Props.Labels.C05_shorten_preserves _ _ h1 h2
  · have : shortenElem pkg e = e := by
      cases e <;> first | rfl | exact absurd ⟨_, rfl⟩ h
    rw [this]
    exact .other e fun s hs => h ⟨s, hs⟩

theorem shortValue_onLists (pkg : Bytes) (v : Expr) : ShortValue pkg v (onLists (fun l => l.map (shortenElem pkg)) v) := by
  have hm : ∀ l : List Expr, Forall2 (ShortOf pkg) l (l.map (shortenElem pkg)) := by
    intro l
    induction l with
    | nil => exact .nil
    | cons x l ih => exact .cons (shortElem_spec pkg x) ih
  exact (onLists_edit _ v).imp (fun l _ h => h ▸ hm l) fun _ _ h => h

theorem shortFold (la : Bytes → Bool) (pkg : Bytes) : ∀ (keys : List Bytes) (args : List Expr) (fl : Bool), keys.Nodup →
    ArgsChange (fun n v v' => n ∈ keys ∧ la n = true ∧ v' = onLists (fun l => l.map (shortenElem pkg)) v) args
      (keys.foldl (shortenStep la pkg) (args, fl)).1 ∧
    ∀ k, attr k (keys.foldl (shortenStep la pkg) (args, fl)).1 =
      if k ∈ keys ∧ la k = true then onLists (fun l => l.map (shortenElem pkg)) (attr k args) else attr k args
  | [], args, fl, _ => ⟨argsChange_refl _ _, fun k => by simp⟩
  | key :: keys, args, fl, hn => by
    rw [List.nodup_cons] at hn
    rw [List.foldl_cons]
    unfold shortenStep
    split
    · rename_i hl
      have ih := shortFold la pkg keys (onAttr key (onLists fun l => l.map (shortenElem pkg)) args)
        (fl || (allLists (attr key args)).flatten.any (shortens pkg)) hn.2
      refine ⟨argsChange_trans (onAttr_change key _ args) ih.1 ?_ ?_ ?_, fun k => ?_⟩
      · rintro n v v' ⟨rfl, rfl⟩; exact ⟨by simp, hl, rfl⟩
      · rintro n v v' ⟨h1, h2, h3⟩; exact ⟨by simp [h1], h2, h3⟩
      · rintro n v v' v'' ⟨rfl, _⟩ ⟨h, _⟩; exact absurd h hn.1
      · have h2 := ih.2 k
        unfold shortenStep at h2
        rw [h2]
        by_cases hk : k = key
        · subst hk
          simp [hn.1, hl, attr_onAttr _ _ _ (onLists_nil _)]
        · simp [hk, attr_onAttr_other _ _ _ _ hk]
    · rename_i hl
      have ih := shortFold la pkg keys args fl hn.2
      refine ⟨argsChange_trans (argsChange_refl (fun _ _ _ => False) args) ih.1 (fun _ _ _ h => h.elim) ?_ (fun _ _ _ _ h => h.elim), fun k => ?_⟩
      · rintro n v v' ⟨h1, h2, h3⟩; exact ⟨by simp [h1], h2, h3⟩
      · have h2 := ih.2 k
        unfold shortenStep at h2
        rw [h2]
        by_cases hk : k = key
        · subst hk; simp [hl]
        · simp [hk]

/-- **C78**: `shortenLabels` changes only labels in the lists of label attributes, and each still denotes the same target. (No attribute is given
twice, which Starlark does not allow.) -/
theorem C78_shorten_labels (la : Bytes → Bytes → Bool) (pkg : Bytes) (c : Comments) (x : Expr) (p : Pos) (args : List Expr) (e : EndN) (a b : Bool)
    (hn : (attrKeys args).Nodup) :
    ∃ args', (shortenLabels la pkg (.call c x p args e a b)).1 = .call c x p args' e a b ∧
      ArgsChange (fun n v v' => la (kindOf x) n = true ∧ ShortValue pkg v v') args args' ∧
      ∀ k, la (kindOf x) k = true → ShortValue pkg (attr k args) (attr k args') := by
  have h := shortFold (la (kindOf x)) pkg (attrKeys args) args false hn
  refine ⟨_, rfl, ?_, ?_⟩
  · refine argsChange_trans (argsChange_refl (fun _ _ _ => False) args) h.1 (fun _ _ _ h => h.elim) ?_ (fun _ _ _ _ h => h.elim)
    rintro n v v' ⟨_, h2, rfl⟩
    exact ⟨h2, shortValue_onLists pkg v⟩
  · intro k hk
    have h2 := h.2 k
    show ShortValue pkg _ (attr k ((attrKeys args).foldl (shortenStep (la (kindOf x)) pkg) (args, false)).1)
    rw [h2]
    by_cases hm : k ∈ attrKeys args
    · rw [if_pos ⟨hm, hk⟩]; exact shortValue_onLists pkg _
    · rw [if_neg (by simp [hm])]
      have : attr k args = .nil := (Props.Attr.C27_get args k).2 fun y hy hd => hm ((Props.Attr.C27_keys args k .nil).1.2 ⟨y, hy, hd⟩)
      rw [this]
      exact shortValue_onLists pkg .nil

example : shortenLabels (fun _ k => k == b!"deps") b!"pkg" (call b!"cc_library" [kw b!"deps" (lst [str b!"//pkg:a", str b!"//b/c:c"]),
      kw b!"data" (lst [str b!"//pkg:a"])]) =
    (call b!"cc_library" [kw b!"deps" (lst [str b!":a", str b!"//b/c"]), kw b!"data" (lst [str b!"//pkg:a"])], true) := rfl

/-! ## Attributes with their default value -/

/-- `e` is a list of string literals with these values -/
def StringList (e : Expr) (vs : List Bytes) : Prop :=
  ∃ c p l t m, e = .list c p l t m ∧ Forall2 (fun x v => ∃ s : StringN, x = .string s ∧ s.value = v) l vs

/-- the arguments of the first `package(...)` statement -/
def PackageDecl (stmts : List Expr) (args : List Expr) : Prop :=
  ∃ pre c i p e a b post, stmts = pre ++ .call c (.ident i) p args e a b :: post ∧ i.name = b!"package" ∧
    ∀ y ∈ pre, ∀ c i p l e a b, y = .call c (.ident i) p l e a b → i.name ≠ b!"package"

/-- the visibility of a rule that does not give one: private, or as the package declaration says -/
inductive DefaultVisibility (stmts : List Expr) : List Bytes → Prop
  | noPackage : (¬ ∃ a, PackageDecl stmts a) → DefaultVisibility stmts [b!"//visibility:private"]
  | noDefault (a) : PackageDecl stmts a → attr b!"default_visibility" a = .nil → DefaultVisibility stmts [b!"//visibility:private"]
  | declared (a vs) : PackageDecl stmts a → StringList (attr b!"default_visibility" a) vs → DefaultVisibility stmts vs

theorem stringValues_iff : ∀ (l : List Expr) (vs : List Bytes),
    stringValues l = some vs ↔ Forall2 (fun x v => ∃ s : StringN, x = .string s ∧ s.value = v) l vs
  | [], vs => by
    constructor
    · intro h; simp [stringValues] at h; subst h; exact .nil
    · intro h; cases h; rfl
  | x :: l, vs => by
    constructor
    · intro h
      by_cases hx : ∃ s, x = .string s
      · obtain ⟨s, rfl⟩ := hx
        rw [stringValues] at h
        cases hs : stringValues l with
        | none => simp [hs] at h
        | some ws => simp [hs] at h; subst h; exact .cons ⟨s, rfl, rfl⟩ ((stringValues_iff l ws).1 hs)
      · have : stringValues (x :: l) = none := by cases x <;> first | rfl | exact absurd ⟨_, rfl⟩ hx
        rw [this] at h; cases h
    · intro h
      cases h with
      | cons hx hl =>
        obtain ⟨s, rfl, rfl⟩ := hx
        simp [stringValues, (stringValues_iff l _).2 hl]

theorem strings_iff (e : Expr) (vs : List Bytes) (hv : vs ≠ []) : strings e = vs ↔ StringList e vs := by
  constructor
  · intro h
    unfold strings at h
    split at h
    · rename_i c p l t m
      refine ⟨c, p, l, t, m, rfl, ?_⟩
      cases hs : stringValues l with
      | none => simp [hs] at h; exact absurd h hv
      | some ws => simp [hs] at h; exact h ▸ (stringValues_iff l ws).1 hs
    · exact absurd h (Ne.symm hv)
  · rintro ⟨c, p, l, t, m, rfl, h⟩
    simp [strings, (stringValues_iff l vs).2 h]

theorem packageArgs_some (stmts a : List Expr) : packageArgs stmts = some a ↔ PackageDecl stmts a := by
  have hcall : ∀ y, Rewrite.isFunctionCall y b!"package" = true ↔ ∃ c i p l e a b, y = .call c (.ident i) p l e a b ∧ i.name = b!"package" := by
    intro y
    unfold Rewrite.isFunctionCall
    split
    · rename_i c i p l e a b
      constructor
      · intro h; exact ⟨_, _, _, _, _, _, _, rfl, by simpa using h⟩
      · rintro ⟨_, _, _, _, _, _, _, h, hi⟩; cases h; simpa using hi
    · rename_i h
      constructor
      · intro h; cases h
      · rintro ⟨_, _, _, _, _, _, _, h', _⟩; exact absurd h' (h _ _ _ _ _ _ _)
  constructor
  · intro h
    unfold packageArgs at h
    cases hf : stmts.find? fun e => Rewrite.isFunctionCall e b!"package" with
    | none => simp [hf] at h
    | some d =>
      simp [hf] at h
      obtain ⟨hd, pre, post, he, hpre⟩ := List.find?_eq_some_iff_append.1 hf
      obtain ⟨c, i, p, l, e, x, y, rfl, hi⟩ := (hcall d).1 hd
      simp only [argsOf] at h
      subst h
      refine ⟨pre, c, i, p, e, x, y, post, he, hi, ?_⟩
      intro z hz c' i' p' l' e' a' b' hz' hi'
      have := hpre z hz
      simp [(hcall z).2 ⟨_, _, _, _, _, _, _, hz', hi'⟩] at this
  · rintro ⟨pre, c, i, p, e, x, y, post, rfl, hi, hpre⟩
    unfold packageArgs
    have : (pre ++ Expr.call c (.ident i) p a e x y :: post).find? (fun e => Rewrite.isFunctionCall e b!"package") =
        some (.call c (.ident i) p a e x y) := by
      rw [List.find?_eq_some_iff_append]
      refine ⟨(hcall _).2 ⟨_, _, _, _, _, _, _, rfl, hi⟩, pre, post, rfl, ?_⟩
      intro z hz
      rw [Bool.not_eq_true']
      rw [Bool.eq_false_iff]
      intro hc
      obtain ⟨c', i', p', l', e', a', b', hz', hi'⟩ := (hcall z).1 hc
      exact hpre z hz _ _ _ _ _ _ _ hz' hi'
    rw [this]
    rfl

theorem default_iff (stmts : List Expr) (vs : List Bytes) (hv : vs ≠ []) : defaultVisibility stmts = vs ↔ DefaultVisibility stmts vs := by
  unfold defaultVisibility
  cases hp : packageArgs stmts with
  | none =>
    have hno : ¬ ∃ a, PackageDecl stmts a := fun ⟨a, ha⟩ => by rw [(packageArgs_some stmts a).2 ha] at hp; cases hp
    constructor
    · intro h; rw [← h]; exact .noPackage hno
    · intro h
      cases h with
      | noPackage => rfl
      | noDefault a h1 => exact absurd ⟨a, h1⟩ hno
      | declared a _ h1 => exact absurd ⟨a, h1⟩ hno
  | some a =>
    have ha := (packageArgs_some stmts a).1 hp
    have huniq : ∀ a', PackageDecl stmts a' → a' = a := fun a' h => by rw [(packageArgs_some stmts a').2 h] at hp; injection hp
    dsimp only
    split
    · rename_i hnil
      constructor
      · intro h; rw [← h]; exact .noDefault a ha (eq_nil hnil)
      · intro h
        cases h with
        | noPackage h1 => exact absurd ⟨a, ha⟩ h1
        | noDefault a' h1 => rfl
        | declared a' _ h1 h2 =>
          rw [huniq a' h1, eq_nil hnil] at h2
          obtain ⟨_, _, _, _, _, h, _⟩ := h2
          cases h
    · rename_i hnil
      rw [strings_iff _ _ hv]
      constructor
      · intro h; exact .declared a vs ha h
      · intro h
        cases h with
        | noPackage h1 => exact absurd ⟨a, ha⟩ h1
        | noDefault a' h1 h2 => rw [huniq a' h1] at h2; rw [h2] at hnil; exact absurd rfl hnil
        | declared a' _ h1 h2 => rw [huniq a' h1] at h2; exact h2

theorem sorts_eq_iff (srt : List Bytes → List Bytes) (hs : Rewrite.Sorts strLess srt) (v d : List Bytes) : srt v = srt d ↔ v.Perm d := by
  constructor
  · intro h
    exact (hs v).1.symm.trans (h ▸ (hs d).1)
  · intro h
    refine sortedPerm_unique (less := strLess) (l := d) ?_ ⟨(hs v).1.trans h, (hs v).2⟩ (hs d)
    intro a _ b _ h1 h2
    apply Classical.byContradiction
    intro hab
    rcases strLess_total.total a b hab with h | h
    · rw [h1] at h; cases h
    · rw [h2] at h; cases h

/-- **C78**: `removeVisibility` removes the attribute iff it is a list of strings that has, in any order, exactly the default visibility. -/
theorem C78_visibility (srt : List Bytes → List Bytes) (hs : Rewrite.Sorts strLess srt) (stmts : List Expr) (c : Comments) (x : Expr) (p : Pos)
    (args : List Expr) (e : EndN) (a b : Bool) :
    ((removeVisibility srt stmts (.call c x p args e a b)).2 = true ↔
      ∃ vs ds, vs ≠ [] ∧ StringList (attr b!"visibility" args) vs ∧ DefaultVisibility stmts ds ∧ vs.Perm ds) ∧
    (removeVisibility srt stmts (.call c x p args e a b)).1 =
      if (removeVisibility srt stmts (.call c x p args e a b)).2 = true then .call c x p (delAttr b!"visibility" args).1 e a b else .call c x p args e a b := by
  have hP : (∃ vs ds, vs ≠ [] ∧ StringList (attr b!"visibility" args) vs ∧ DefaultVisibility stmts ds ∧ vs.Perm ds) ↔
      strings (attr b!"visibility" args) ≠ [] ∧ (strings (attr b!"visibility" args)).Perm (defaultVisibility stmts) := by
    constructor
    · rintro ⟨vs, ds, hne, h1, h2, h3⟩
      have hne' : ds ≠ [] := fun h => hne (by rw [h] at h3; exact h3.eq_nil)
      rw [(strings_iff _ _ hne).2 h1, (default_iff _ _ hne').2 h2]
      exact ⟨hne, h3⟩
    · rintro ⟨hne, h3⟩
      have hne' : defaultVisibility stmts ≠ [] := fun h => hne (by rw [h] at h3; exact h3.eq_nil)
      exact ⟨_, _, hne, (strings_iff _ _ hne).1 rfl, (default_iff _ _ hne').1 rfl, h3⟩
  rw [hP]
  unfold removeVisibility
  dsimp only [argsOf]
  split
  · rename_i h
    refine ⟨⟨(by intro h; cases h), ?_⟩, by simp⟩
    rintro ⟨hne, h3⟩
    rcases h with h | h
    · exact absurd (List.eq_nil_of_length_eq_zero h) hne
    · exact absurd h3.length_eq h
  · rename_i h
    split
    · rename_i h4
      refine ⟨⟨(by intro h; cases h), ?_⟩, by simp⟩
      rintro ⟨_, h3⟩
      exact absurd ((sorts_eq_iff srt hs _ _).2 h3) h4
    · rename_i h4
      refine ⟨⟨fun _ => ?_, fun _ => rfl⟩, by simp [setArgs]⟩
      exact ⟨fun hh => h (.inl (by rw [hh]; rfl)), (sorts_eq_iff srt hs _ _).1 (Classical.not_not.1 h4)⟩

/-- a package that makes its targets visible to `//a` and `//b` by default -/
def exPackage : Expr := call b!"package" [kw b!"default_visibility" (lst [str b!"//a:x", str b!"//b:y"])]

example : removeVisibility (sortBy strLess) [exPackage] (call b!"cc_library" [kw b!"name" (str b!"l"),
    kw b!"visibility" (lst [str b!"//b:y", str b!"//a:x"])]) = (call b!"cc_library" [kw b!"name" (str b!"l")], true) := by rfl

/-- **C78**: the fix does not look at the kind of the call. `exports_files` without `visibility` makes its files public in Bazel, so that removing
`visibility = ["//visibility:private"]` from it is not without effect. -/
theorem C78_visibility_exports :
    removeVisibility (sortBy strLess) [] (call b!"exports_files" [lst [str b!"f"], kw b!"visibility" (lst [str b!"//visibility:private"])]) =
      (call b!"exports_files" [lst [str b!"f"]], true) := by rfl

/-- the literal `1`/`0` or an identifier with that name -/
def Lit (e : Expr) (t : Bytes) : Prop := (∃ i, e = .ident i ∧ i.name = t) ∨ ∃ c p, e = .literal c p t

/-- the value of `testonly` for a rule that does not give one -/
inductive DefaultTestOnly (stmts : List Expr) (kind pkg : Bytes) : Bool → Prop
  | test : ((∃ k, kind = k ++ b!"_test") ∨ kind = b!"test_suite") → DefaultTestOnly stmts kind pkg true
  | noPackage (d) : (¬ ∃ k, kind = k ++ b!"_test") → kind ≠ b!"test_suite" → (¬ ∃ a, PackageDecl stmts a) →
      (d = true ↔ ∃ k, pkg = b!"javatests/" ++ k) → DefaultTestOnly stmts kind pkg d
  | noDefault (a d) : (¬ ∃ k, kind = k ++ b!"_test") → kind ≠ b!"test_suite" → PackageDecl stmts a → attr b!"default_testonly" a = .nil →
      (d = true ↔ ∃ k, pkg = b!"javatests/" ++ k) → DefaultTestOnly stmts kind pkg d
  | yes (a) : (¬ ∃ k, kind = k ++ b!"_test") → kind ≠ b!"test_suite" → PackageDecl stmts a → Lit (attr b!"default_testonly" a) b!"1" →
      DefaultTestOnly stmts kind pkg true
  | no (a) : (¬ ∃ k, kind = k ++ b!"_test") → kind ≠ b!"test_suite" → PackageDecl stmts a → Lit (attr b!"default_testonly" a) b!"0" →
      DefaultTestOnly stmts kind pkg false

theorem literal_iff (e : Expr) (t : Bytes) (ht : t ≠ []) : literal e = t ↔ Lit e t := by
  unfold literal Lit
  split
  · simp
  · simp
  · rename_i h1 h2
    constructor
    · intro h; exact absurd h.symm ht
    · rintro (⟨i, rfl, _⟩ | ⟨c, p, rfl⟩)
      · exact absurd rfl (h1 i)
      · exact absurd rfl (h2 c p t)

theorem prefix_iff (s p : Bytes) : hasPrefix s p = true ↔ ∃ k, s = p ++ k := by
  simp only [hasPrefix, List.isPrefixOf_iff_prefix, List.IsPrefix]
  exact ⟨fun ⟨k, h⟩ => ⟨k, h.symm⟩, fun ⟨k, h⟩ => ⟨k, h.symm⟩⟩

theorem suffix_iff (s p : Bytes) : hasSuffix s p = true ↔ ∃ k, s = k ++ p := by
  simp only [hasSuffix, List.isSuffixOf_iff_suffix, List.IsSuffix]
  exact ⟨fun ⟨k, h⟩ => ⟨k, h.symm⟩, fun ⟨k, h⟩ => ⟨k, h.symm⟩⟩

theorem bool_iff_eq {a : Bool} {P : Prop} {d : Bool} (h : a = true ↔ P) : some a = some d ↔ (d = true ↔ P) := by
  rw [Option.some.injEq, ← h]
  cases a <;> cases d <;> simp

theorem testOnly_iff (stmts : List Expr) (kind pkg : Bytes) (d : Bool) :
    defaultTestOnly stmts kind pkg = some d ↔ DefaultTestOnly stmts kind pkg d := by
  unfold defaultTestOnly
  split
  · rename_i h
    rw [Bool.or_eq_true, suffix_iff, beq_iff_eq] at h
    constructor
    · intro hd; injection hd with hd; subst hd; exact .test h
    · intro hd
      cases hd with
      | test => rfl
      | noPackage _ h1 h2 => exact (h.elim h1 h2).elim
      | noDefault _ _ h1 h2 => exact (h.elim h1 h2).elim
      | yes _ h1 h2 => rfl
      | no _ h1 h2 => exact (h.elim h1 h2).elim
  · rename_i h
    rw [Bool.or_eq_true, suffix_iff, beq_iff_eq, not_or] at h
    cases hp : packageArgs stmts with
    | none =>
      have hno : ¬ ∃ a, PackageDecl stmts a := fun ⟨a, ha⟩ => by rw [(packageArgs_some stmts a).2 ha] at hp; cases hp
      dsimp only
      rw [bool_iff_eq (prefix_iff _ _)]
      constructor
      · intro hd; exact .noPackage d h.1 h.2 hno hd
      · intro hd
        cases hd with
        | test h1 => exact (h1.elim h.1 h.2).elim
        | noPackage _ _ _ _ h1 => exact h1
        | noDefault a _ _ _ h1 => exact absurd ⟨a, h1⟩ hno
        | yes a _ _ h1 => exact absurd ⟨a, h1⟩ hno
        | no a _ _ h1 => exact absurd ⟨a, h1⟩ hno
    | some a =>
      have ha := (packageArgs_some stmts a).1 hp
      have huniq : ∀ a', PackageDecl stmts a' → a' = a := fun a' h => by rw [(packageArgs_some stmts a').2 h] at hp; injection hp
      have hl1 := literal_iff (attr b!"default_testonly" a) b!"1" (by decide)
      have hl0 := literal_iff (attr b!"default_testonly" a) b!"0" (by decide)
      dsimp only
      split
      · rename_i hnil
        have hnil := eq_nil hnil
        have hlit : ∀ t, ¬ Lit (attr b!"default_testonly" a) t := by
          intro t ht; rw [hnil] at ht
          rcases ht with ⟨_, h, _⟩ | ⟨_, _, h⟩ <;> cases h
        rw [bool_iff_eq (prefix_iff _ _)]
        constructor
        · intro hd; exact .noDefault a d h.1 h.2 ha hnil hd
        · intro hd
          cases hd with
          | test h1 => exact (h1.elim h.1 h.2).elim
          | noPackage _ _ _ h1 => exact absurd ⟨a, ha⟩ h1
          | noDefault _ _ _ _ _ _ h1 => exact h1
          | yes a' _ _ h1 h2 => rw [huniq a' h1] at h2; exact absurd h2 (hlit _)
          | no a' _ _ h1 h2 => rw [huniq a' h1] at h2; exact absurd h2 (hlit _)
      · rename_i hnil
        have hne : ∀ a', PackageDecl stmts a' → attr b!"default_testonly" a' ≠ .nil := by
          intro a' h1 h2; rw [huniq a' h1] at h2; rw [h2] at hnil; exact hnil rfl
        split
        · rename_i h1
          constructor
          · intro hd; injection hd with hd; subst hd; exact .yes a h.1 h.2 ha (hl1.1 h1)
          · intro hd
            cases hd with
            | test => rfl
            | noPackage _ _ _ h1 => exact absurd ⟨a, ha⟩ h1
            | noDefault a' _ _ _ h3 h4 => exact absurd h4 (hne a' h3)
            | yes => rfl
            | no a' _ _ h3 h4 =>
              rw [huniq a' h3, ← hl0, h1] at h4
              exact absurd h4 (by decide)
        · rename_i h1
          split
          · rename_i h0
            refine ⟨(by intro h; cases h), fun hd => ?_⟩
            cases hd with
            | test h1 => exact (h1.elim h.1 h.2).elim
            | noPackage _ _ _ h1 => exact absurd ⟨a, ha⟩ h1
            | noDefault a' _ _ _ h3 h4 => exact absurd h4 (hne a' h3)
            | yes a' _ _ h3 h4 => rw [huniq a' h3, ← hl1] at h4; exact absurd h4 h1
            | no a' _ _ h3 h4 => rw [huniq a' h3, ← hl0] at h4; exact absurd h4 h0
          · rename_i h0
            have h0 := Classical.not_not.1 h0
            constructor
            · intro hd; injection hd with hd; subst hd; exact .no a h.1 h.2 ha (hl0.1 h0)
            · intro hd
              cases hd with
              | test h1 => exact (h1.elim h.1 h.2).elim
              | noPackage _ _ _ h1 => exact absurd ⟨a, ha⟩ h1
              | noDefault a' _ _ _ h3 h4 => exact absurd h4 (hne a' h3)
              | yes a' _ _ h3 h4 => rw [huniq a' h3, ← hl1] at h4; exact absurd h4 h1
              | no => rfl

/-- **C78**: `removeTestOnly` removes `testonly` iff it is the literal default value (`1` where the default is true, `0` where it is false). -/
theorem C78_testonly (stmts : List Expr) (pkg : Bytes) (c : Comments) (x : Expr) (p : Pos) (args : List Expr) (e : EndN) (a b : Bool) :
    ((removeTestOnly stmts pkg (.call c x p args e a b)).2 = true ↔
      ∃ d, DefaultTestOnly stmts (kindOf x) pkg d ∧ Lit (attr b!"testonly" args) (if d then b!"1" else b!"0")) ∧
    (removeTestOnly stmts pkg (.call c x p args e a b)).1 =
      if (removeTestOnly stmts pkg (.call c x p args e a b)).2 = true then .call c x p (delAttr b!"testonly" args).1 e a b else .call c x p args e a b := by
  obtain ⟨r, hr⟩ : ∃ r, removeTestOnly stmts pkg (.call c x p args e a b) = r := ⟨_, rfl⟩
  rw [hr]
  unfold removeTestOnly at hr
  dsimp only [argsOf, kind] at hr
  cases hd : defaultTestOnly stmts (kindOf x) pkg with
  | none =>
    rw [hd] at hr
    subst hr
    refine ⟨⟨(by intro h; cases h), ?_⟩, by simp⟩
    rintro ⟨d, h, _⟩
    rw [(testOnly_iff _ _ _ _).2 h] at hd
    cases hd
  | some d =>
    have huniq : ∀ d', DefaultTestOnly stmts (kindOf x) pkg d' → d' = d := fun d' h => by
      rw [(testOnly_iff _ _ _ _).2 h] at hd; injection hd
    have hcond : ((d && literal (attr b!"testonly" args) == b!"1") || (!d && literal (attr b!"testonly" args) == b!"0")) = true ↔
        Lit (attr b!"testonly" args) (if d then b!"1" else b!"0") := by
      cases d <;> simp [literal_iff _ b!"1" (by decide), literal_iff _ b!"0" (by decide)]
    rw [hd] at hr
    dsimp only at hr
    split at hr
    · rename_i h
      subst hr
      exact ⟨⟨fun _ => ⟨d, (testOnly_iff _ _ _ _).1 hd, hcond.1 h⟩, fun _ => rfl⟩, by simp [setArgs]⟩
    · rename_i h
      subst hr
      refine ⟨⟨(by intro h; cases h), ?_⟩, by simp⟩
      rintro ⟨d', h1, h2⟩
      rw [huniq d' h1] at h2
      exact absurd (hcond.2 h2) h

example : removeTestOnly [call b!"package" [kw b!"default_testonly" (.literal {} {} b!"1")]] b!"p"
    (call b!"cc_library" [kw b!"testonly" (.literal {} {} b!"1"), kw b!"name" (str b!"a")]) = (call b!"cc_library" [kw b!"name" (str b!"a")], true) := rfl

end Verif.Props.Fix
