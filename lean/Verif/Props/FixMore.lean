import Verif.Props.FixText
import Verif.Props.FixTree
/-
C78–C80, continued: what `shortenLabels` reports, the fixes of genrules and `exports_files`, and where the comments of `licenses` statements go.
-/
namespace Verif.Props.FixMore
open Verif Verif.Syntax Verif.Fix Verif.Edit Verif.Props.Fix Verif.Props.FixText
open Verif.Props.Attr (Defines FirstDef withName)

theorem shortens_iff (pkg : Bytes) (x : Expr) : shortens pkg x = true ↔ ∃ s : StringN, x = .string s ∧ Labels.shorten s.value pkg ≠ s.value := by
  unfold shortens
  split
  · rename_i s
    rw [decide_eq_true_iff]
    exact ⟨fun h => ⟨s, rfl, fun h' => h h'.symm⟩, fun ⟨t, ht, h⟩ => by cases ht; exact fun h' => h h'.symm⟩
  · rename_i h
    exact ⟨(by intro h; cases h), fun ⟨s, he, _⟩ => absurd he (h s)⟩

theorem shortFold_flag (la : Bytes → Bool) (pkg : Bytes) : ∀ (keys : List Bytes) (args : List Expr) (fl : Bool), keys.Nodup →
    ((keys.foldl (shortenStep la pkg) (args, fl)).2 = true ↔
      fl = true ∨ ∃ k ∈ keys, la k = true ∧ (allLists (attr k args)).flatten.any (shortens pkg) = true)
  | [], args, fl, _ => by simp
  | key :: keys, args, fl, hn => by
    rw [List.nodup_cons] at hn
    rw [List.foldl_cons]
    unfold shortenStep
    split
    · rename_i hl
      have ih := shortFold_flag la pkg keys (onAttr key (onLists fun l => l.map (shortenElem pkg)) args)
        (fl || (allLists (attr key args)).flatten.any (shortens pkg)) hn.2
      unfold shortenStep at ih
      rw [ih, Bool.or_eq_true]
      constructor
      · rintro ((h | h) | ⟨k, hk, h1, h2⟩)
        · exact .inl h
        · exact .inr ⟨key, by simp, hl, h⟩
        · refine .inr ⟨k, by simp [hk], h1, ?_⟩
          rwa [attr_onAttr_other _ _ _ _ (by rintro rfl; exact hn.1 hk)] at h2
      · rintro (h | ⟨k, hk, h1, h2⟩)
        · exact .inl (.inl h)
        · rcases List.mem_cons.1 hk with rfl | hk
          · exact .inl (.inr h2)
          · refine .inr ⟨k, hk, h1, ?_⟩
            have hne : k ≠ key := fun h => hn.1 (h ▸ hk)
            rwa [attr_onAttr_other _ _ _ _ hne]
    · rename_i hl
      have ih := shortFold_flag la pkg keys args fl hn.2
      unfold shortenStep at ih
      rw [ih]
      constructor
      · rintro (h | ⟨k, hk, h⟩)
        · exact .inl h
        · exact .inr ⟨k, by simp [hk], h⟩
      · rintro (h | ⟨k, hk, h1, h2⟩)
        · exact .inl h
        · rcases List.mem_cons.1 hk with rfl | hk
          · exact absurd h1 hl
          · exact .inr ⟨k, hk, h1, h2⟩

/-- **C78**: `shortenLabels` reports a fix iff one of the lists of a label attribute has a label that can be shortened. -/
theorem C78_shorten_reported (la : Bytes → Bytes → Bool) (pkg : Bytes) (c : Comments) (x : Expr) (p : Pos) (args : List Expr) (e : EndN) (a b : Bool)
    (hn : (attrKeys args).Nodup) :
    (shortenLabels la pkg (.call c x p args e a b)).2 = true ↔
      ∃ (k : Bytes) (s : StringN), la (kindOf x) k = true ∧ Props.ListEdit.InLists (.string s) (attr k args) ∧ Labels.shorten s.value pkg ≠ s.value := by
  have h := shortFold_flag (la (kindOf x)) pkg (attrKeys args) args false hn
  refine Iff.trans h ?_
  constructor
  · rintro (h | ⟨k, _, h1, h2⟩)
    · cases h
    · obtain ⟨y, hy, hs⟩ := (any_lists _ _).1 h2
      obtain ⟨s, rfl, hs'⟩ := (shortens_iff _ _).1 hs
      exact ⟨k, s, h1, hy, hs'⟩
  · rintro ⟨k, s, h1, h2, h3⟩
    refine .inr ⟨k, ?_, h1, (any_lists _ _).2 ⟨_, h2, (shortens_iff _ _).2 ⟨s, rfl, h3⟩⟩⟩
    apply Classical.byContradiction
    intro hm
    have : attr k args = .nil := (Props.Attr.C27_get args k).2 fun y hy hd => hm ((Props.Attr.C27_keys args k .nil).1.2 ⟨y, hy, hd⟩)
    rw [this] at h2
    obtain ⟨_, _, _, _, _, ho, _⟩ := h2
    cases ho

/-- **C79**: in a genrule, the first `deps` is renamed to `tools` if there are no `tools` yet. Other rules are not changed. -/
theorem C79_genrule_tools (c : Comments) (x : Expr) (p : Pos) (args : List Expr) (e : EndN) (a b : Bool) :
    (∀ pre d post, kindOf x = b!"genrule" → attr b!"tools" args = .nil → FirstDef args b!"deps" pre d post →
      renameDepsTools (.call c x p args e a b) = (.call c x p (pre ++ withName b!"tools" d :: post) e a b, true)) ∧
    (kindOf x ≠ b!"genrule" ∨ attr b!"tools" args ≠ .nil ∨ (∀ y ∈ args, ¬ Defines b!"deps" y) →
      renameDepsTools (.call c x p args e a b) = (.call c x p args e a b, false)) := by
  have hnil : ∀ v : Expr, v.isNil = true ↔ v = .nil := by intro v; cases v <;> simp [Expr.isNil]
  obtain ⟨h1, h2, h3⟩ := Props.Attr.C27_rename args b!"deps" b!"tools"
  have hk : kind (.call c x p args e a b) = kindOf x := rfl
  constructor
  · intro pre d post hg ht hf
    unfold renameDepsTools
    rw [hk, if_pos hg]
    show (match renameAttribute b!"deps" b!"tools" args with
      | some l => (setArgs (.call c x p args e a b) l, true)
      | none => (_, false)) = _
    rw [h3 pre d post ((hnil _).2 ht) hf]
    rfl
  · intro h
    unfold renameDepsTools
    rw [hk]
    split
    · rename_i hg
      have : renameAttribute b!"deps" b!"tools" args = none := by
        rcases h with h | h | h
        · exact absurd hg h
        · refine h1 ?_
          cases hh : (attr b!"tools" args).isNil
          · rfl
          · exact absurd ((hnil _).1 hh) h
        · exact h2 h
      show (match renameAttribute b!"deps" b!"tools" args with
        | some l => (setArgs (.call c x p args e a b) l, true)
        | none => (_, false)) = _
      rw [this]
    · rfl

/-- **C80**: `sortExportsFiles` sorts the first argument of `exports_files` (as C11 says) and changes nothing else. -/
theorem C80_exports (strip : Bool) (c : Comments) (x : Expr) (p : Pos) (args : List Expr) (e : EndN) (a b : Bool) :
    (∀ y l, kindOf x = b!"exports_files" → args = y :: l →
      sortExports strip (.call c x p args e a b) = (.call c x p (Rewrite.sortStringList strip y :: l) e a b, true)) ∧
    (kindOf x ≠ b!"exports_files" ∨ args = [] → sortExports strip (.call c x p args e a b) = (.call c x p args e a b, false)) := by
  have hk : kind (.call c x p args e a b) = kindOf x := rfl
  constructor
  · rintro y l hx rfl
    unfold sortExports
    rw [hk, if_pos hx]
    rfl
  · intro h
    unfold sortExports
    rw [hk]
    split
    · rename_i hx
      rcases h with h | rfl
      · exact absurd hx h
      · rfl
    · rfl

/-- `args'` is `args` with `name = x`, in the place of the first definition of `name`, or at the end if there is none; `c` are the comments of the definition -/
inductive Placed (name : Bytes) (x : Expr) (c : Comments) (args : List Expr) : List Expr → Prop
  | there (pre cd i p o lb r post) : FirstDef args name pre (.assign cd (.ident i) p o lb r) post → Placed name x c args (pre ++ .assign c (.ident i) p o lb x :: post)
  | new : (∀ y ∈ args, ¬ Defines name y) → Placed name x c args (args ++ [.assign c (.ident { name := name }) {} b!"=" false x])

theorem firstDef_or (name : Bytes) : ∀ args : List Expr, (∃ pre cd i p o lb r post, FirstDef args name pre (.assign cd (.ident i) p o lb r) post) ∨ ∀ y ∈ args, ¬ Defines name y
  | [] => .inr fun y hy => by cases hy
  | y :: args => by
    by_cases hy : Defines name y
    · obtain ⟨c, i, p, o, lb, r, rfl, hi⟩ := hy
      exact .inl ⟨[], c, i, p, o, lb, r, args, rfl, ⟨c, i, p, o, lb, r, rfl, hi⟩, by simp⟩
    · rcases firstDef_or name args with ⟨pre, cd, i, p, o, lb, r, post, h1, h2, h3⟩ | h
      · refine .inl ⟨y :: pre, cd, i, p, o, lb, r, post, by rw [h1]; rfl, h2, ?_⟩
        intro z hz
        rcases List.mem_cons.1 hz with rfl | hz
        · exact hy
        · exact h3 z hz
      · refine .inr fun z hz => ?_
        rcases List.mem_cons.1 hz with rfl | hz
        · exact hy
        · exact h z hz

theorem setDefn_skip (name : Bytes) (c : Comments) : ∀ (pre rest : List Expr), (∀ y ∈ pre, ¬ Defines name y) →
    setDefnComments name c (pre ++ rest) = pre ++ setDefnComments name c rest
  | [], rest, _ => rfl
  | y :: pre, rest, h => by
    have ih := setDefn_skip name c pre rest fun z hz => h z (by simp [hz])
    rw [List.cons_append, setDefnComments.eq_def]
    split
    · rename_i heq; cases heq
    · rename_i c' i p o lb r l heq
      cases heq
      rw [if_pos (by rintro rfl; exact h _ (.head _) ⟨_, _, _, _, _, _, rfl, rfl⟩), ih]
      rfl
    · rename_i heq
      cases heq
      rw [ih]
      rfl

theorem setDefn_here (name : Bytes) (c cd : Comments) (i : IdentN) (p : Pos) (o : Bytes) (lb : Bool) (r : Expr) (l : List Expr) (hi : i.name = name) :
    setDefnComments name c (.assign cd (.ident i) p o lb r :: l) = .assign c (.ident i) p o lb r :: l := by
  rw [setDefnComments, if_neg (by simp [hi])]

theorem place (name : Bytes) (x : Expr) (c : Comments) (args : List Expr) : Placed name x c args (setDefnComments name c (setAttr name x args)) := by
  rcases firstDef_or name args with ⟨pre, cd, i, p, o, lb, r, post, hf⟩ | hno
  · have hset := (Props.Attr.C27_set args name x).1 pre _ post hf
    obtain ⟨h1, h2, h3⟩ := hf
    obtain ⟨c1, i1, p1, o1, lb1, r1, he, hi⟩ := h2
    cases he
    have e : setDefnComments name c (setAttr name x args) = pre ++ .assign c (.ident i) p o lb x :: post := by
      rw [hset]
      show setDefnComments name c (pre ++ .assign cd (.ident i) p o lb x :: post) = _
      rw [setDefn_skip name c _ _ h3, setDefn_here _ _ _ _ _ _ _ _ _ hi]
    rw [e]
    exact .there pre cd i p o lb r post ⟨h1, ⟨_, _, _, _, _, _, rfl, hi⟩, h3⟩
  · have hset := (Props.Attr.C27_set args name x).2 hno
    rw [hset, setDefn_skip name c _ _ hno, setDefn_here name c {} { name := name } {} b!"=" false x [] rfl]
    exact .new hno

theorem placed_none (name : Bytes) (l args : List Expr) (h : ∀ e ∈ l, ¬ ∃ x, IsCallOf name e x) : l.foldl (moveOne name) args = args := by
  induction l generalizing args with
  | nil => rfl
  | cons s l ih =>
    rw [List.foldl_cons, ih _ fun e he => h e (by simp [he])]
    have : licensesArg name s = none := by simpa using (licensesArg_none name s).2 (h s (by simp))
    unfold moveOne
    rw [this]

/-- what is placed after something else has been placed is in the same place -/
theorem placed_placed (name : Bytes) (x y : Expr) (c d : Comments) (args l l' : List Expr) (h : Placed name x c args l) (h' : Placed name y d l l') :
    Placed name y d args l' := by
  have key : ∀ {l : List Expr} {pre pre' post post' : List Expr} {z z' : Expr}, FirstDef l name pre z post → FirstDef l name pre' z' post' →
      pre = pre' ∧ z = z' ∧ post = post' := by
    intro l pre
    induction pre generalizing l with
    | nil =>
      rintro pre' post post' z z' ⟨h1, h2, h3⟩ ⟨g1, g2, g3⟩
      cases pre' with
      | nil => rw [h1] at g1; simp at g1; exact ⟨rfl, g1.1, g1.2⟩
      | cons w pre' => rw [h1] at g1; simp at g1; exact absurd (g1.1 ▸ h2) (g3 w (by simp))
    | cons v pre ih =>
      rintro pre' post post' z z' ⟨h1, h2, h3⟩ ⟨g1, g2, g3⟩
      cases pre' with
      | nil => rw [h1] at g1; simp at g1; exact absurd (g1.1 ▸ g2) (h3 v (by simp))
      | cons w pre' =>
        rw [h1] at g1
        simp at g1
        obtain ⟨rfl, hh⟩ := g1
        obtain ⟨rfl, rfl, rfl⟩ := ih (l := pre ++ z :: post) ⟨rfl, h2, fun y hy => h3 y (by simp [hy])⟩ ⟨hh, g2, fun y hy => g3 y (by simp [hy])⟩
        exact ⟨rfl, rfl, rfl⟩
  cases h with
  | there pre cd i p o lb r post hf =>
    have hn : i.name = name := by
      obtain ⟨_, ⟨c1, i1, p1, o1, lb1, r1, he, hi⟩, _⟩ := hf
      cases he
      exact hi
    have hf2 : FirstDef (pre ++ .assign c (.ident i) p o lb x :: post) name pre (.assign c (.ident i) p o lb x) post :=
      ⟨rfl, ⟨_, _, _, _, _, _, rfl, hn⟩, hf.2.2⟩
    cases h' with
    | there pre' cd' i' p' o' lb' r' post' hf' =>
      obtain ⟨rfl, he, rfl⟩ := key hf2 hf'
      cases he
      exact .there pre cd i p o lb r post hf
    | new hno => exact absurd hf2.2.1 (hno _ (by simp))
  | new hno =>
    have hf2 : FirstDef (args ++ [.assign c (.ident { name := name }) {} b!"=" false x]) name args (.assign c (.ident { name := name }) {} b!"=" false x) [] :=
      ⟨rfl, ⟨_, _, _, _, _, _, rfl, rfl⟩, hno⟩
    cases h' with
    | there pre' cd' i' p' o' lb' r' post' hf' =>
      obtain ⟨rfl, he, rfl⟩ := key hf2 hf'
      cases he
      exact .new hno
    | new hno' => exact absurd hf2.2.1 (hno' _ (by simp))

theorem moveOne_some (name : Bytes) (args : List Expr) (s x : Expr) (h : IsCallOf name s x) : Placed name x s.comments args (moveOne name args s) := by
  unfold moveOne
  rw [(licensesArg_iff name s x).2 h]
  exact place _ _ _ _

theorem fold_placed (name : Bytes) : ∀ (before : List Expr) (y x : Expr) (after args : List Expr), IsCallOf name y x → (∀ z ∈ after, ¬ ∃ x, IsCallOf name z x) →
    Placed name x y.comments args ((before ++ y :: after).foldl (moveOne name) args)
  | [], y, x, after, args, h, hn => by
    rw [List.nil_append, List.foldl_cons, placed_none _ _ _ hn]
    exact moveOne_some _ _ _ _ h
  | s :: before, y, x, after, args, h, hn => by
    rw [List.cons_append, List.foldl_cons]
    have ih := fold_placed name before y x after (moveOne name args s) h hn
    by_cases hs : ∃ z, IsCallOf name s z
    · obtain ⟨z, hz⟩ := hs
      exact placed_placed _ _ _ _ _ _ _ _ (moveOne_some _ _ _ _ hz) ih
    · have : moveOne name args s = args := placed_none name [s] args (by simpa using hs)
      rw [this] at ih ⊢
      exact ih

/-- **C79**: `moveLicenses` gives the package declaration the argument `licenses = x`, where `licenses(x)` is the last such statement, with the comments of
that statement: in the place of the declaration's first `licenses`, or as its last argument. The other arguments are unchanged. -/
theorem C79_licenses_placed (pre post : List Expr) (c : Comments) (i : IdentN) (p : Pos) (args : List Expr) (e : EndN) (a b : Bool)
    (hi : i.name = b!"package") (hpre : ∀ y ∈ pre, ∀ c i p l e a b, y = .call c (.ident i) p l e a b → i.name ≠ b!"package")
    (before after : List Expr) (y x : Expr) (h : pre ++ .call c (.ident i) p args e a b :: post = before ++ y :: after) (hy : IsCallOf b!"licenses" y x)
    (hafter : ∀ z ∈ after, ¬ ∃ x, IsCallOf b!"licenses" z x) :
    ∃ args', (moveLicenses (pre ++ .call c (.ident i) p args e a b :: post)).1 =
        without b!"licenses" pre ++ .call c (.ident i) p args' e a b :: without b!"licenses" post ∧
      Placed b!"licenses" x y.comments args args' := by
  refine ⟨_, moved_eq pre post c i p args e a b hi hpre, ?_⟩
  rw [h]
  exact fold_placed _ _ _ _ _ _ hy hafter

/-! ### Cases that meet the hypotheses -/

theorem C78_reported_example : (shortenLabels (fun _ k => k = b!"deps") b!"a/b" (call b!"cc_library" [kw b!"deps" (lst [str b!"//a/b:b"])])).2 = true ∧
    (shortenLabels (fun _ k => k = b!"deps") b!"a/b" (call b!"cc_library" [kw b!"deps" (lst [str b!":b"])])).2 = false := by decide

theorem C79_moved_example : (moveLicenses [call b!"package" [kw b!"licenses" (lst []), kw b!"features" (lst [])],
      .call { before := [{ token := b!"# why" }] } (.ident { name := b!"licenses" }) {} [lst [str b!"notice"]] {} false false]).1 =
    [call b!"package" [.assign { before := [{ token := b!"# why" }] } (.ident { name := b!"licenses" }) {} b!"=" false (lst [str b!"notice"]),
      kw b!"features" (lst [])]] := rfl

theorem C79_tools_example : renameDepsTools (call b!"genrule" [kw b!"deps" (lst [str b!":a"])]) = (call b!"genrule" [kw b!"tools" (lst [str b!":a"])], true) := rfl

end Verif.Props.FixMore
