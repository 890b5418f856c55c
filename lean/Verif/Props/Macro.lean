import Verif.Proofs.MacroDfs
import Verif.Props.Walk
/-
C71: the functions reported as macros without a `name` argument.
-/
namespace Verif.Props.Macro
open Verif Verif.Syntax Verif.Walk Verif.Macro

/-! ## Specification -/

/-- the names a file imports from the same repository, in order: the local name and what it stands for -/
def imports (s : Src) : List (Bytes × Fn) := s.stmts.flatMap fun
  | .load _ _ m f t _ _ =>
    let lab := Labels.parseRelative m.value s.pkg
    if lab.repository = [] ∧ lab.target ≠ [] then (f.zip t).map fun p => (p.2.name, ⟨lab.package, lab.target, p.1.name⟩) else []
  | _ => []

/-- what a name in a file stands for: the last import of the name, or the definition in the file itself -/
def refers (s : Src) (m : Bytes) : Fn :=
  match (imports s).reverse.find? (fun p => p.1 = m) with
  | some p => p.2
  | none => ⟨s.pkg, s.label, m⟩

/-- the last statement `n = m` of a file -/
def aliasOf (s : Src) (n : Bytes) : Option Bytes := s.stmts.reverse.findSome? fun
  | .assign _ (.ident i) _ _ _ (.ident m) => if i.name = n then some m.name else none
  | _ => none

/-- there is a statement `n = rule(...)` -/
def IsRule (s : Src) (n : Bytes) : Prop :=
  ∃ c i p op lb c' m a l e x y, Expr.assign c (.ident i) p op lb (.call c' (.ident m) a l e x y) ∈ s.stmts ∧ i.name = n ∧ m.name = b!"rule"

/-- the last function `n` of the file -/
def defOf (s : Src) (n : Bytes) : Option Expr := s.stmts.reverse.find? fun
  | .defS _ _ m .. => m = n
  | _ => false

/-- the node is somewhere in the tree -/
inductive Node : Expr → Expr → Prop
  | self (v) : v.isNil = false → Node v v
  | child (v x y) : v.isNil = false → x ∈ slots v → Node x y → Node v y

/-- the tree calls the function: by its name or as `native.name` -/
inductive Calls (s : Src) (d : Expr) : Fn → Prop
  | name (c n a l e x y) : Node d (.call c (.ident n) a l e x y) → Calls s d (refers s n.name)
  | native (c dc n dp np name a l e x y) : Node d (.call c (.dot dc (.ident n) dp np name) a l e x y) → n.name = b!"native" → Calls s d ⟨[], b!"<native>", name⟩

/-- The function creates targets: it is a rule of the native module or of a file, or another name of such a function, or it calls one.
(`src` are the files; of several definitions of a name an alias counts first, then a rule, then the last function.) -/
inductive CallsRule (src : Bytes → Bytes → Option Src) : Fn → Prop
  | native (f) : f.filename = b!"<native>" →
      f.name ∉ [b!"glob", b!"existing_rule", b!"existing_rules", b!"package_name", b!"repository_name", b!"exports_files"] → CallsRule src f
  | alias (f s m) : f.filename ≠ b!"<native>" → src f.pkg f.filename = some s → aliasOf s f.name = some m → CallsRule src (refers s m) → CallsRule src f
  | rule (f s) : f.filename ≠ b!"<native>" → src f.pkg f.filename = some s → aliasOf s f.name = none → IsRule s f.name → CallsRule src f
  | call (f s d g) : f.filename ≠ b!"<native>" → src f.pkg f.filename = some s → aliasOf s f.name = none → ¬ IsRule s f.name → defOf s f.name = some d →
      Calls s d g → CallsRule src g → CallsRule src f

/-- the files as the analysis sees them: the file being checked, and what the reader returns for the others -/
def world (rd : Reader) (s : Src) : Bytes → Bytes → Option Src :=
  fun p l => if (p, l) = (s.pkg, s.label) then some s else rd.bind fun r => r p l

/-- names that are called do not start with `native.` (a name has no dot in it) -/
def NoDots (src : Bytes → Bytes → Option Src) : Prop :=
  ∀ p l s, src p l = some s → ∀ d ∈ s.stmts, ∀ c n a ls e x y, Node d (.call c (.ident n) a ls e x y) → hasPrefix n.name b!"native." = false

/-- one step from a function: to what it is another name of, or to a function it calls -/
inductive Step (src : Bytes → Bytes → Option Src) : Fn → Fn → Prop
  | alias (f s m) : f.filename ≠ b!"<native>" → src f.pkg f.filename = some s → aliasOf s f.name = some m → Step src f (refers s m)
  | call (f s d g) : f.filename ≠ b!"<native>" → src f.pkg f.filename = some s → aliasOf s f.name = none → ¬ IsRule s f.name → defOf s f.name = some d →
      Calls s d g → Step src f g

/-- the parameter `name`, `name: type`, `name = default`, `*name`, `**name`: the name and the operator -/
inductive Param : Expr → Bytes → Bytes → Prop
  | ident (n : IdentN) : Param (.ident n) n.name []
  | typed (c) (n : IdentN) (t) : Param (.typedIdent c n t) n.name []
  | default (c l p op b r n o) : Param l n o → Param (.assign c l p op b r) n o
  | star (c p op x n o) : Param x n o → Param (.unary c p op x) n op

/-- a public function that takes neither an argument `name` nor `**kwargs` -/
def Candidate (s : Src) (i : Nat) (name : Bytes) : Prop :=
  ∃ c p ps b cp fc fm t, s.stmts[i]? = some (.defS c p name ps b cp fc fm t) ∧ name.head? ≠ some 0x5f ∧
    ¬ ∃ q ∈ ps, ∃ n op, Param q n op ∧ (n = b!"name" ∨ op = b!"**")

/-! ## The data of a file -/

theorem loadSymbols_eq (p t : Bytes) : ∀ (f ts : List IdentN) (ext : List (Bytes × Fn)),
    loadSymbols p t ext f ts = ((f.zip ts).map fun q => (q.2.name, (⟨p, t, q.1.name⟩ : Fn))).reverse ++ ext
  | [], ts, ext => by simp [loadSymbols]
  | f :: fs, [], ext => by simp [loadSymbols]
  | f :: fs, i :: is, ext => by
    rw [loadSymbols, loadSymbols_eq p t fs is]
    simp

/-- the imports of one statement -/
def imp1 (pkg : Bytes) : Expr → List (Bytes × Fn)
  | .load _ _ m f t _ _ =>
    let lab := Labels.parseRelative m.value pkg
    if lab.repository = [] ∧ lab.target ≠ [] then (f.zip t).map fun p => (p.2.name, ⟨lab.package, lab.target, p.1.name⟩) else []
  | _ => []

theorem imports_eq (s : Src) : imports s = s.stmts.flatMap (imp1 s.pkg) := by
  unfold imports
  congr 1

theorem externals_eq (pkg : Bytes) : ∀ (l : List Expr) (ext : List (Bytes × Fn)), externals pkg ext l = (l.flatMap (imp1 pkg)).reverse ++ ext
  | [], ext => by simp [externals]
  | x :: l, ext => by
    rw [List.flatMap_cons, List.reverse_append, List.append_assoc]
    have ih := externals_eq pkg l
    cases x
    case load c p m f t r fc =>
      rw [externals]
      dsimp only [imp1]
      by_cases h : (Labels.parseRelative m.value pkg).repository = [] ∧ (Labels.parseRelative m.value pkg).target ≠ []
      · rw [if_neg (by rintro (h' | h'); exact h' h.1; exact h.2 h'), if_pos h, ih, loadSymbols_eq]
      · rw [if_pos (by
          by_cases h1 : (Labels.parseRelative m.value pkg).repository = []
          · exact .inr (Decidable.byContradiction fun h2 => h ⟨h1, h2⟩)
          · exact .inl h1), if_neg h, ih]
        rfl
    all_goals (unfold externals; exact ih ext)

theorem lookup_find (n : Bytes) : ∀ l : List (Bytes × Fn), l.lookup n = (l.find? fun p => p.1 = n).map (·.2)
  | [] => rfl
  | (a, b) :: l => by
    rw [lookup_cons_eq, List.find?_cons]
    by_cases h : n = a
    · simp [h]
    · have : ¬ a = n := fun e => h e.symm
      simp [h, this, lookup_find n l]

theorem resolve_refers (s : Src) (m : Bytes) : resolveExternal ⟨s.pkg, s.label, m⟩ (externals s.pkg [] s.stmts) = refers s m := by
  unfold resolveExternal refers
  rw [externals_eq, List.append_nil, ← imports_eq]
  dsimp only
  rw [lookup_find]
  cases (imports s).reverse.find? fun p => p.1 = m <;> rfl

/-- the alias made by a statement -/
def alias1 (s : Src) (ext : List (Bytes × Fn)) : Expr → List (Bytes × Fn)
  | .assign _ (.ident n) _ _ _ (.ident m) => [(n.name, resolveExternal ⟨s.pkg, s.label, m.name⟩ ext)]
  | _ => []
/-- the rule made by a statement -/
def rule1 : Expr → List Bytes
  | .assign _ (.ident n) _ _ _ (.call _ (.ident m) _ _ _ _ _) => if m.name = b!"rule" then [n.name] else []
  | _ => []
/-- the function made by a statement -/
def def1 (s : Src) (ext : List (Bytes × Fn)) : Expr → List (Bytes × List FunCall)
  | .defS c p n ps b cp fc fm t => [(n, getFunCalls (.defS c p n ps b cp fc fm t) s.pkg s.label ext)]
  | _ => []

theorem analyzeStmt_eq (s : Src) (ext : List (Bytes × Fn)) (r : FileData) (x : Expr) :
    (analyzeStmt s ext r x).aliases = alias1 s ext x ++ r.aliases ∧ (analyzeStmt s ext r x).rules = rule1 x ++ r.rules ∧
    (analyzeStmt s ext r x).functions = def1 s ext x ++ r.functions := by
  unfold analyzeStmt
  split
  · exact ⟨rfl, rfl, rfl⟩
  · unfold rule1
    dsimp only
    split <;> exact ⟨rfl, rfl, rfl⟩
  · exact ⟨rfl, rfl, rfl⟩
  · rename_i h1 h2 h3
    refine ⟨?_, ?_, ?_⟩
    · unfold alias1
      split
      · exact absurd rfl (h1 _ _ _ _ _ _)
      · rfl
    · unfold rule1
      split
      · exact absurd rfl (h2 _ _ _ _ _ _ _ _ _ _ _ _)
      · rfl
    · unfold def1
      split
      · exact absurd rfl (h3 _ _ _ _ _ _ _ _ _)
      · rfl

theorem analyzeStmts_eq (s : Src) (ext : List (Bytes × Fn)) : ∀ (l : List Expr) (r : FileData),
    (analyzeStmts s ext r l).aliases = l.reverse.flatMap (alias1 s ext) ++ r.aliases ∧ (analyzeStmts s ext r l).rules = l.reverse.flatMap rule1 ++ r.rules ∧
    (analyzeStmts s ext r l).functions = l.reverse.flatMap (def1 s ext) ++ r.functions
  | [], r => ⟨rfl, rfl, rfl⟩
  | x :: l, r => by
    obtain ⟨h1, h2, h3⟩ := analyzeStmts_eq s ext l (analyzeStmt s ext r x)
    obtain ⟨g1, g2, g3⟩ := analyzeStmt_eq s ext r x
    rw [analyzeStmts, h1, h2, h3, g1, g2, g3]
    simp

theorem lookup_alias (s : Src) (n : Bytes) : ∀ l : List Expr,
    (l.flatMap (alias1 s (externals s.pkg [] s.stmts))).lookup n = (l.findSome? fun
      | .assign _ (.ident i) _ _ _ (.ident m) => if i.name = n then some m.name else none
      | _ => none).map (refers s)
  | [] => rfl
  | x :: l => by
    rw [List.flatMap_cons, List.findSome?_cons]
    have ih := lookup_alias s n l
    unfold alias1
    split
    · rename_i c i p op lb m
      rw [List.singleton_append, lookup_cons_eq, resolve_refers]
      by_cases h : n = i.name
      · simp [h]
      · have : ¬ i.name = n := fun e => h e.symm
        simp only [h, this, if_false]
        exact ih
    · rename_i h1
      rw [List.nil_append]
      split
      · rename_i b hb
        cases hb
      · exact ih

theorem mem_rules (s : Src) (n : Bytes) : n ∈ s.stmts.reverse.flatMap rule1 ↔ IsRule s n := by
  rw [List.mem_flatMap]
  constructor
  · rintro ⟨x, hx, hn⟩
    unfold rule1 at hn
    split at hn
    · split at hn
      · rename_i hm
        exact ⟨_, _, _, _, _, _, _, _, _, _, _, _, List.mem_reverse.1 hx, (List.mem_singleton.1 hn).symm, hm⟩
      · cases hn
    · cases hn
  · rintro ⟨c, i, p, op, lb, c', m, a, l, e, x, y, hx, hi, hm⟩
    refine ⟨_, List.mem_reverse.2 hx, ?_⟩
    dsimp only [rule1]
    rw [if_pos hm, hi]
    exact List.mem_singleton.2 rfl

theorem lookup_def (s : Src) (ext : List (Bytes × Fn)) (n : Bytes) : ∀ l : List Expr,
    (l.flatMap (def1 s ext)).lookup n = (l.find? fun
      | .defS _ _ m .. => m = n
      | _ => false).map fun d => getFunCalls d s.pkg s.label ext
  | [] => rfl
  | x :: l => by
    rw [List.flatMap_cons, List.find?_cons]
    have ih := lookup_def s ext n l
    unfold def1
    split
    · rename_i c p m ps b cp fc fm t
      rw [List.singleton_append, lookup_cons_eq]
      by_cases h : n = m
      · simp [h]
      · have : ¬ m = n := fun e => h e.symm
        simp only [h, this, if_false, decide_false]
        exact ih
    · rename_i h1
      rw [List.nil_append]
      split
      · rename_i hb
        cases hb
      · exact ih

/-! ## The calls of a function -/

theorem node_occ {stk : List Expr} (v : Expr) : ∀ y, Node v y ↔ ∃ s, (s, y) ∈ Props.Walk.occ stk v := by
  intro y
  constructor
  · intro h
    induction h generalizing stk with
    | self v hv => exact ⟨stk, by rw [Props.Walk.occ_slots, if_neg (by simp [hv])]; exact List.mem_cons_self⟩
    | child v x y hv hx _ ih =>
      obtain ⟨s, hs⟩ := ih (stk := stk ++ [v])
      refine ⟨s, ?_⟩
      rw [Props.Walk.occ_slots, if_neg (by simp [hv])]
      exact List.mem_cons_of_mem _ (List.mem_flatMap.2 ⟨x, hx, hs⟩)
  · rintro ⟨s, hs⟩
    have key : ∀ n, ∀ v stk s y, size v ≤ n → (s, y) ∈ Props.Walk.occ stk v → Node v y := by
      intro n
      induction n with
      | zero => intro v stk s y hn _; cases v <;> (unfold size at hn; omega)
      | succ n ih =>
        intro v stk s y hn h
        rw [Props.Walk.occ_slots] at h
        split at h
        · cases h
        · rename_i hv
          have hv' : v.isNil = false := by simpa using hv
          rcases List.mem_cons.1 h with h | h
          · cases h; exact .self v hv'
          · obtain ⟨x, hx, hs⟩ := List.mem_flatMap.1 h
            exact .child v x y hv' hx (ih x _ _ _ (by have := size_slot_lt hx; omega) hs)
    exact key _ v stk s y (Nat.le_refl _) hs

theorem mem_putCall {c d : FunCall} : ∀ {l : List FunCall}, d ∈ putCall c l → d = c ∨ d ∈ l
  | [], h => by simpa [putCall] using h
  | e :: l, h => by
    rw [putCall] at h
    split at h
    · rcases List.mem_cons.1 h with h | h
      · exact .inl h
      · exact .inr (List.mem_cons_of_mem _ h)
    · rcases List.mem_cons.1 h with h | h
      · exact .inr (h ▸ List.mem_cons_self)
      · exact (mem_putCall h).imp id (List.mem_cons_of_mem _)

theorem self_putCall (c : FunCall) : ∀ l : List FunCall, c ∈ putCall c l
  | [] => List.mem_cons_self
  | e :: l => by
    rw [putCall]
    split
    · exact List.mem_cons_self
    · exact List.mem_cons_of_mem _ (self_putCall c l)

theorem key_putCall {c d : FunCall} : ∀ {l : List FunCall}, d ∈ l → ∃ e ∈ putCall c l, e.nameAlias = d.nameAlias
  | e :: l, h => by
    rw [putCall]
    rcases List.mem_cons.1 h with h | h
    · subst h
      split
      · rename_i he
        exact ⟨c, List.mem_cons_self, he.symm⟩
      · exact ⟨d, List.mem_cons_self, rfl⟩
    · split
      · exact ⟨d, List.mem_cons_of_mem _ h, rfl⟩
      · obtain ⟨e', h1, h2⟩ := key_putCall (c := c) h
        exact ⟨e', List.mem_cons_of_mem _ h1, h2⟩

/-- the calls collected from a list of nodes -/
theorem fold_calls (k : Expr → Option FunCall) : ∀ (l : List (List Expr × Expr)) (s : List FunCall),
    (∀ c ∈ l.foldl (fun s p => match k p.2 with | some c => putCall c s | none => s) s, c ∈ s ∨ ∃ p ∈ l, k p.2 = some c) ∧
    (∀ d ∈ s, ∃ e ∈ l.foldl (fun s p => match k p.2 with | some c => putCall c s | none => s) s, e.nameAlias = d.nameAlias) ∧
    (∀ p ∈ l, ∀ d, k p.2 = some d → ∃ e ∈ l.foldl (fun s p => match k p.2 with | some c => putCall c s | none => s) s, e.nameAlias = d.nameAlias)
  | [], s => ⟨fun c h => .inl h, fun d h => ⟨d, h, rfl⟩, fun p h => (by cases h)⟩
  | p :: l, s => by
    rw [List.foldl_cons]
    obtain ⟨h1, h2, h3⟩ := fold_calls k l (match k p.2 with | some c => putCall c s | none => s)
    refine ⟨fun c hc => ?_, fun d hd => ?_, fun q hq d hd => ?_⟩
    · rcases h1 c hc with h | ⟨q, hq, hk⟩
      · cases hk : k p.2 with
        | none => rw [hk] at h; exact .inl h
        | some c' =>
          rw [hk] at h
          rcases mem_putCall h with h | h
          · exact .inr ⟨p, List.mem_cons_self, h ▸ hk⟩
          · exact .inl h
      · exact .inr ⟨q, List.mem_cons_of_mem _ hq, hk⟩
    · cases hk : k p.2 with
      | none => rw [hk] at h2; exact h2 d hd
      | some c =>
        rw [hk] at h2
        obtain ⟨e, he, hde⟩ := key_putCall (c := c) hd
        obtain ⟨e', he', hd'⟩ := h2 e he
        exact ⟨e', he', hd'.trans hde⟩
    · rcases List.mem_cons.1 hq with hq | hq
      · subst hq
        rw [hd] at h2 ⊢
        exact h2 d (self_putCall d s)
      · exact h3 q hq d hd

/-- the call a node makes -/
theorem callOf_calls {s : Src} {d x : Expr} {c : FunCall} (hn : Node d x) (h : callOf s.pkg s.label (externals s.pkg [] s.stmts) x = some c) : Calls s d c.fn := by
  unfold callOf at h
  split at h
  · cases h
    rw [resolve_refers]
    exact .name _ _ _ _ _ _ _ hn
  · split at h
    · rename_i hm
      cases h
      exact .native _ _ _ _ _ _ _ _ _ _ _ hn hm
    · cases h
  · cases h

theorem getFunCalls_sound {s : Src} {d : Expr} {c : FunCall} (h : c ∈ getFunCalls d s.pkg s.label (externals s.pkg [] s.stmts)) : Calls s d c.fn := by
  unfold getFunCalls at h
  rw [Props.Walk.C26_walk_visits_every_node_once] at h
  rcases (fold_calls _ _ _).1 c h with h | ⟨p, hp, hk⟩
  · cases h
  · exact callOf_calls ((node_occ d p.2).2 ⟨p.1, hp⟩) hk

/-- the key of a call tells the function -/
theorem key_fn {s : Src} {d : Expr} {c : FunCall} {x : Expr} (hdot : ∀ c n a ls e x y, Node d (.call c (.ident n) a ls e x y) → hasPrefix n.name b!"native." = false)
    (hn : Node d x) (h : callOf s.pkg s.label (externals s.pkg [] s.stmts) x = some c) :
    (hasPrefix c.nameAlias b!"native." = false ∧ c.fn = refers s c.nameAlias) ∨ ∃ name, c.nameAlias = b!"native." ++ name ∧ c.fn = ⟨[], b!"<native>", name⟩ := by
  unfold callOf at h
  split at h
  · cases h
    rw [resolve_refers]
    exact .inl ⟨hdot _ _ _ _ _ _ _ hn, rfl⟩
  · split at h
    · cases h
      exact .inr ⟨_, rfl, rfl⟩
    · cases h
  · cases h

theorem getFunCalls_complete {s : Src} {d : Expr} {g : Fn}
    (hdot : ∀ c n a ls e x y, Node d (.call c (.ident n) a ls e x y) → hasPrefix n.name b!"native." = false) (h : Calls s d g) :
    ∃ c ∈ getFunCalls d s.pkg s.label (externals s.pkg [] s.stmts), c.fn = g := by
  have key : ∀ x c, Node d x → callOf s.pkg s.label (externals s.pkg [] s.stmts) x = some c →
      ∃ e ∈ getFunCalls d s.pkg s.label (externals s.pkg [] s.stmts), e.fn = c.fn := by
    intro x c hx hk
    obtain ⟨stk, hs⟩ := (node_occ (stk := []) d x).1 hx
    unfold getFunCalls
    rw [Props.Walk.C26_walk_visits_every_node_once]
    obtain ⟨h1, -, h3⟩ := fold_calls (callOf s.pkg s.label (externals s.pkg [] s.stmts)) (Props.Walk.occ [] d) []
    obtain ⟨e, he, ha⟩ := h3 _ hs c hk
    refine ⟨e, he, ?_⟩
    rcases h1 e he with h | ⟨p, hp, hpe⟩
    · cases h
    · have ke := key_fn hdot ((node_occ d p.2).2 ⟨p.1, hp⟩) hpe
      have kc := key_fn hdot hx hk
      rw [ha] at ke
      rcases ke with ⟨e1, e2⟩ | ⟨n, e1, e2⟩ <;> rcases kc with ⟨c1, c2⟩ | ⟨m, c1, c2⟩
      · rw [e2, c2]
      · rw [c1] at e1; simp [hasPrefix] at e1
      · rw [e1] at c1; simp [hasPrefix] at c1
      · rw [e1] at c1
        rw [e2, c2, List.append_cancel_left c1]
  cases h with
  | name c n a l e x y hn =>
    obtain ⟨q, hq, hf⟩ := key _ ⟨refers s n.name, n.name, (Expr.call c (.ident n) a l e x y).startPos.line⟩ hn (by rw [callOf, resolve_refers])
    exact ⟨q, hq, hf⟩
  | native c dc n dp np name a l e x y hn hm =>
    obtain ⟨q, hq, hf⟩ := key _ ⟨⟨[], nativeModule, name⟩, b!"native." ++ name, (Expr.dot dc (.ident n) dp np name).startPos.line⟩ hn (by rw [callOf, if_pos hm])
    exact ⟨q, hq, hf⟩

/-! ## The graph -/

theorem data (s : Src) : (analyzeFile (some s)).aliases = s.stmts.reverse.flatMap (alias1 s (externals s.pkg [] s.stmts)) ∧
    (analyzeFile (some s)).rules = s.stmts.reverse.flatMap rule1 ∧
    (analyzeFile (some s)).functions = s.stmts.reverse.flatMap (def1 s (externals s.pkg [] s.stmts)) := by
  obtain ⟨h1, h2, h3⟩ := analyzeStmts_eq s (externals s.pkg [] s.stmts) s.stmts {}
  exact ⟨h1.trans (List.append_nil _), h2.trans (List.append_nil _), h3.trans (List.append_nil _)⟩

theorem kind_native {src : Bytes → Bytes → Option Src} {f : Fn} (h : f.filename = b!"<native>") :
    kindOf src f = if nativeFunctions.contains f.name then .no else .yes := by
  unfold kindOf
  rw [if_pos (show f.filename = nativeModule from h)]

theorem kind_none {src : Bytes → Bytes → Option Src} {f : Fn} (h : f.filename ≠ b!"<native>") (hs : src f.pkg f.filename = none) : kindOf src f = .no := by
  unfold kindOf
  rw [if_neg (show f.filename ≠ nativeModule from h), hs]
  rfl

theorem kind_some {src : Bytes → Bytes → Option Src} {f : Fn} {s : Src} (h : f.filename ≠ b!"<native>") (hs : src f.pkg f.filename = some s) :
    (∀ m, aliasOf s f.name = some m → kindOf src f = .alias (refers s m)) ∧
    (aliasOf s f.name = none → (IsRule s f.name → kindOf src f = .yes) ∧
      (¬ IsRule s f.name → (defOf s f.name = none → kindOf src f = .no) ∧
        ∀ d, defOf s f.name = some d → kindOf src f = .calls (getFunCalls d s.pkg s.label (externals s.pkg [] s.stmts)))) := by
  obtain ⟨h1, h2, h3⟩ := data s
  have ha : (analyzeFile (some s)).aliases.lookup f.name = (aliasOf s f.name).map (refers s) := by rw [h1, lookup_alias]; rfl
  have hd : (analyzeFile (some s)).functions.lookup f.name = (defOf s f.name).map fun d => getFunCalls d s.pkg s.label (externals s.pkg [] s.stmts) := by
    rw [h3, lookup_def]; rfl
  have hr : (analyzeFile (some s)).rules.contains f.name = true ↔ IsRule s f.name := by
    rw [List.contains_iff_mem, h2, mem_rules]
  unfold kindOf
  rw [if_neg (show f.filename ≠ nativeModule from h), hs]
  dsimp only
  rw [ha, hd]
  refine ⟨fun m hm => by rw [hm]; rfl, fun hn => ?_⟩
  rw [hn]
  refine ⟨fun hi => ?_, fun hi => ⟨fun hz => ?_, fun d hz => ?_⟩⟩
  · dsimp only [Option.map]
    rw [if_pos (hr.2 hi)]
  · dsimp only [Option.map]
    rw [if_neg (fun e => hi (hr.1 e)), hz]
  · dsimp only [Option.map]
    rw [if_neg (fun e => hi (hr.1 e)), hz]

theorem kind_native_cases {src : Bytes → Bytes → Option Src} {f : Fn} (h : f.filename = b!"<native>") : kindOf src f = .no ∨ kindOf src f = .yes := by
  rw [kind_native h]
  split <;> simp

theorem edge_step {src : Bytes → Bytes → Option Src} {f g : Fn} (h : Edge src f g) : Step src f g := by
  have hn : f.filename ≠ b!"<native>" := by
    intro hn
    rcases kind_native_cases (src := src) hn with hk | hk <;> (rcases h with h | ⟨l, h, -⟩ <;> (rw [hk] at h; cases h))
  cases hs : src f.pkg f.filename with
  | none => rw [Edge, kind_none hn hs] at h; rcases h with h | ⟨l, h, -⟩ <;> cases h
  | some s =>
    obtain ⟨k1, k2⟩ := kind_some hn hs
    cases ha : aliasOf s f.name with
    | some m =>
      rw [Edge, k1 m ha] at h
      rcases h with h | ⟨l, h, -⟩
      · cases h
        exact .alias f s m hn hs ha
      · cases h
    | none =>
      by_cases hr : IsRule s f.name
      · rw [Edge, (k2 ha).1 hr] at h; rcases h with h | ⟨l, h, -⟩ <;> cases h
      · obtain ⟨k3, k4⟩ := (k2 ha).2 hr
        cases hd : defOf s f.name with
        | none => rw [Edge, k3 hd] at h; rcases h with h | ⟨l, h, -⟩ <;> cases h
        | some d =>
          rw [Edge, k4 d hd] at h
          rcases h with h | ⟨l, h, c, hc, hg⟩
          · cases h
          · cases h
            subst hg
            exact .call f s d _ hn hs ha hr hd (getFunCalls_sound hc)

theorem step_edge {src : Bytes → Bytes → Option Src} (hdot : NoDots src) {f g : Fn} (h : Step src f g) : Edge src f g := by
  cases h with
  | alias s m hn hs ha => exact .inl ((kind_some hn hs).1 m ha)
  | call s d _ hn hs ha hr hd hc =>
    refine .inr ⟨_, (((kind_some hn hs).2 ha).2 hr).2 d hd, ?_⟩
    have hmem : d ∈ s.stmts := List.mem_reverse.1 (List.mem_of_find?_eq_some hd)
    exact getFunCalls_complete (fun c n a ls e x y => hdot _ _ _ hs d hmem c n a ls e x y) hc

theorem reach_calls {src : Bytes → Bytes → Option Src} {f : Fn} (h : Reach src f) : CallsRule src f := by
  induction h with
  | yes f hk =>
    by_cases hn : f.filename = b!"<native>"
    · rw [kind_native hn] at hk
      split at hk
      · cases hk
      · rename_i hc
        exact .native f hn (fun hm => hc (List.contains_iff_mem.2 hm))
    · cases hs : src f.pkg f.filename with
      | none => rw [kind_none hn hs] at hk; cases hk
      | some s =>
        obtain ⟨k1, k2⟩ := kind_some hn hs
        cases ha : aliasOf s f.name with
        | some m => rw [k1 m ha] at hk; cases hk
        | none =>
          by_cases hr : IsRule s f.name
          · exact .rule f s hn hs ha hr
          · obtain ⟨k3, k4⟩ := (k2 ha).2 hr
            cases hd : defOf s f.name with
            | none => rw [k3 hd] at hk; cases hk
            | some d => rw [k4 d hd] at hk; cases hk
  | edge f g he _ ih =>
    cases edge_step he with
    | alias s m hn hs ha => exact .alias f s m hn hs ha ih
    | call s d _ hn hs ha hr hd hc => exact .call f s d g hn hs ha hr hd hc ih

theorem calls_reach {src : Bytes → Bytes → Option Src} (hdot : NoDots src) {f : Fn} (h : CallsRule src f) : Reach src f := by
  induction h with
  | native f hn hm =>
    refine .yes f ?_
    rw [kind_native hn, if_neg (show ¬ nativeFunctions.contains f.name = true from fun e => hm (List.contains_iff_mem.1 e))]
  | alias f s m hn hs ha _ ih => exact .edge f _ (step_edge hdot (.alias f s m hn hs ha)) ih
  | rule f s hn hs ha hr => exact .yes f (((kind_some hn hs).2 ha).1 hr)
  | call f s d g hn hs ha hr hd hc _ ih => exact .edge f g (step_edge hdot (.call f s d g hn hs ha hr hd hc)) ih

theorem filesOk_start (rd : Reader) (s : Src) : FilesOk (world rd s) rd { files := [((s.pkg, s.label), analyzeFile (some s))] } := by
  intro p l
  dsimp only
  rw [lookup_cons_eq]
  unfold world
  by_cases h : (p, l) = (s.pkg, s.label)
  · rw [if_pos h, if_pos h]
    exact ⟨fun fd e => (Option.some.inj e).symm, fun e => (by cases e)⟩
  · rw [if_neg h, if_neg h]
    exact ⟨fun fd e => (by cases e), fun _ => rfl⟩

/-! ## The parameters -/

theorem paramIdent_param : ∀ (x : Expr) (n op : Bytes), paramIdent x = some (n, op) → Param x n op := by
  intro x
  induction x using paramIdent.induct with
  | case1 i => intro n op h; cases h; exact .ident i
  | case2 c i t => intro n op h; cases h; exact .typed c i t
  | case3 c l p op' b r ih => intro n op h; rw [paramIdent] at h; exact .default _ _ _ _ _ _ _ _ (ih n op h)
  | case4 c p op' x ih =>
    intro n op h
    rw [paramIdent] at h
    cases hx : paramIdent x with
    | none => rw [hx] at h; cases h
    | some q =>
      rw [hx] at h
      cases h
      exact .star _ _ _ _ _ q.2 (ih q.1 q.2 hx)
  | case5 x h1 h2 h3 h4 => intro n op h; rw [paramIdent] at h <;> first | cases h | assumption

theorem param_paramIdent {x : Expr} {n op : Bytes} (h : Param x n op) : paramIdent x = some (n, op) := by
  induction h with
  | ident => rfl
  | typed => rfl
  | default c l p op b r n o _ ih => rw [paramIdent]; exact ih
  | star c p op x n o _ ih => rw [paramIdent, ih]; rfl

theorem acceptsName_iff (ps : List Expr) : acceptsName ps = true ↔ ∃ q ∈ ps, ∃ n op, Param q n op ∧ (n = b!"name" ∨ op = b!"**") := by
  unfold acceptsName
  rw [List.any_eq_true]
  constructor
  · rintro ⟨q, hq, h⟩
    cases hp : paramIdent q with
    | none => rw [hp] at h; cases h
    | some r =>
      rw [hp] at h
      refine ⟨q, hq, r.1, r.2, paramIdent_param q _ _ hp, ?_⟩
      simpa using h
  · rintro ⟨q, hq, n, op, hp, h⟩
    refine ⟨q, hq, ?_⟩
    rw [param_paramIdent hp]
    simpa using h

theorem hasPrefix_underscore (n : Bytes) : hasPrefix n b!"_" = true ↔ n.head? = some 0x5f := by
  cases n with
  | nil => simp [hasPrefix]
  | cons a l =>
    simp only [hasPrefix, List.isPrefixOf, Bool.and_true, List.head?_cons, Option.some.injEq, beq_iff_eq]
    exact eq_comm

/-! ## The reports -/

variable {rd : Reader} {ord : Fn → List FunCall → List FunCall} {fuel : Nat} {s : Src}

/-- what `checkDefs` maintains: `R` of the state, and the answers to the functions looked at are described by `A` -/
theorem checkDefs_spec {R : St → Prop} {A : Bytes → Bool → Prop}
    (H : ∀ st n r st', R st → isMacro rd ord fuel st ⟨s.pkg, s.label, n⟩ = some (r, st') → R st' ∧ A n r.isMacro) :
    ∀ (l : List Expr) (i : Nat) (st : St) (out : List (Nat × Bytes × Option FunCall)), s.stmts.drop i = l → R st → checkDefs rd ord fuel s i st l = some out →
      (∀ x ∈ out, i ≤ x.1 ∧ Candidate s x.1 x.2.1 ∧ A x.2.1 true) ∧
      (∀ j n, i ≤ j → Candidate s j n → ((∃ c, (j, n, c) ∈ out) ∨ A n false)) := by
  intro l
  induction l with
  | nil =>
    intro i st out hl hR h
    rw [checkDefs] at h
    cases h
    refine ⟨fun x hx => (by cases hx), ?_⟩
    rintro j n hj ⟨c, p, ps, b, cp, fc, fm, t, hg, -⟩
    have h1 : s.stmts.length ≤ i := List.drop_eq_nil_iff.1 hl
    rw [List.getElem?_eq_none (by omega)] at hg
    cases hg
  | cons x l ih =>
    intro i st out hl hR h
    have hx : s.stmts[i]? = some x := by
      have h1 := congrArg (·[0]?) hl
      simpa using h1
    have hl' : s.stmts.drop (i + 1) = l := by
      rw [← List.drop_drop, hl]
      rfl
    by_cases hd : ∃ c p n ps b cp fc fm t, x = .defS c p n ps b cp fc fm t
    · obtain ⟨c, p, n, ps, b, cp, fc, fm, t, rfl⟩ := hd
      rw [checkDefs] at h
      cases hc : checkDef rd ord fuel s st n ps with
      | none => rw [hc] at h; cases h
      | some q =>
        obtain ⟨r, st'⟩ := q
        rw [hc] at h
        dsimp only at h
        cases hr : checkDefs rd ord fuel s (i + 1) st' l with
        | none => rw [hr] at h; cases h
        | some rest =>
          rw [hr] at h
          injection h with h
          unfold checkDef at hc
          split at hc
          · rename_i hskip
            injection hc with hc
            injection hc with hc1 hc2
            subst hc1 hc2 h
            obtain ⟨i1, i2⟩ := ih (i + 1) _ _ hl' hR hr
            refine ⟨fun y hy => ?_, fun j m hj hm => ?_⟩
            · obtain ⟨a, b⟩ := i1 y (by simpa using hy)
              exact ⟨by omega, b⟩
            · rcases Nat.lt_or_ge i j with hij | hij
              · rcases i2 j m hij hm with ⟨c, h⟩ | h
                · exact .inl ⟨c, by simpa using h⟩
                · exact .inr h
              · have : j = i := by omega
                subst this
                obtain ⟨c', p', ps', b', cp', fc', fm', t', hg, h1, h2⟩ := hm
                rw [hx] at hg
                cases hg
                exfalso
                rw [Bool.or_eq_true, hasPrefix_underscore, acceptsName_iff] at hskip
                exact hskip.elim h1 h2
          · rename_i hskip
            rw [Bool.or_eq_true, hasPrefix_underscore, acceptsName_iff] at hskip
            have hcand : Candidate s i n := ⟨c, p, ps, b, cp, fc, fm, t, hx, fun e => hskip (.inl e), fun e => hskip (.inr e)⟩
            cases hm : isMacro rd ord fuel st ⟨s.pkg, s.label, n⟩ with
            | none => rw [hm] at hc; cases hc
            | some q =>
              obtain ⟨rep, st2⟩ := q
              rw [hm] at hc
              dsimp only at hc
              injection hc with hc
              injection hc with hc1 hc2
              subst hc2
              obtain ⟨hR', hA⟩ := H _ _ _ _ hR hm
              obtain ⟨i1, i2⟩ := ih (i + 1) _ _ hl' hR' hr
              subst h hc1
              refine ⟨fun y hy => ?_, fun j m hj hmc => ?_⟩
              · rcases List.mem_append.1 hy with hy | hy
                · cases hb : rep.isMacro with
                  | false => rw [hb] at hy; cases hy
                  | true =>
                    rw [hb] at hy hA
                    have := List.mem_singleton.1 hy
                    subst this
                    exact ⟨Nat.le_refl _, hcand, hA⟩
                · obtain ⟨a, b⟩ := i1 y hy
                  exact ⟨by omega, b⟩
              · rcases Nat.lt_or_ge i j with hij | hij
                · rcases i2 j m hij hmc with ⟨c, h⟩ | h
                  · exact .inl ⟨c, List.mem_append_right _ h⟩
                  · exact .inr h
                · have : j = i := by omega
                  subst this
                  obtain ⟨c', p', ps', b', cp', fc', fm', t', hg, -⟩ := hmc
                  rw [hx] at hg
                  cases hg
                  cases hb : rep.isMacro with
                  | false => rw [hb] at hA; exact .inr hA
                  | true => exact .inl ⟨rep.fc, by simp⟩
    · have hcd : checkDefs rd ord fuel s i st (x :: l) = checkDefs rd ord fuel s (i + 1) st l := by
        cases x
        case defS => exact absurd ⟨_, _, _, _, _, _, _, _, _, rfl⟩ hd
        all_goals rfl
      rw [hcd] at h
      obtain ⟨i1, i2⟩ := ih (i + 1) _ _ hl' hR h
      refine ⟨fun y hy => ?_, fun j m hj hm => ?_⟩
      · obtain ⟨a, b⟩ := i1 y hy
        exact ⟨by omega, b⟩
      · rcases Nat.lt_or_ge i j with hij | hij
        · exact i2 j m hij hm
        · have : j = i := by omega
          subst this
          obtain ⟨c', p', ps', b', cp', fc', fm', t', hg, -⟩ := hm
          rw [hx] at hg
          cases hg
          exact absurd ⟨_, _, _, _, _, _, _, _, _, rfl⟩ hd

/-- Every reported function is public, has no argument `name` and creates targets - whatever the order in which the calls are looked at, for files that
load one another in any way and functions that call one another in any way. -/
theorem C71_reported_is_macro (ho : ∀ f l, (ord f l).Perm l) {type : FileType} {out : List (Nat × Bytes × Option FunCall)} (h : unnamedMacro rd ord fuel type s = some out) :
    ∀ x ∈ out, type = .bzl ∧ Candidate s x.1 x.2.1 ∧ CallsRule (world rd s) ⟨s.pkg, s.label, x.2.1⟩ := by
  unfold unnamedMacro at h
  split at h
  · cases h
    intro x hx
    cases hx
  · rename_i ht
    intro x hx
    have := (checkDefs_spec (R := fun st => FilesOk (world rd s) rd st ∧ Right (world rd s) st)
      (A := fun n b => b = true → Reach (world rd s) ⟨s.pkg, s.label, n⟩)
      (fun st n r st' hR hm => by
        obtain ⟨h1, h2, h3⟩ := isMacro_sound ho _ _ _ _ _ hR.1 hR.2 hm
        exact ⟨⟨h1, h2⟩, h3⟩) s.stmts 0 _ out rfl
      ⟨filesOk_start rd s, fun f r hf => (by cases hf)⟩ h).1 x hx
    exact ⟨Decidable.byContradiction ht, this.2.1, reach_calls (this.2.2 rfl)⟩

/-- If no function calls itself, directly or not (there is a rank that every call and every alias decreases), then exactly the public functions without an
argument `name` that create targets are reported. -/
theorem C71_reported_exactly (ho : ∀ f l, (ord f l).Perm l) (hdot : NoDots (world rd s)) {rank : Fn → Nat} (hrank : ∀ f g, Step (world rd s) f g → rank g < rank f)
    {out : List (Nat × Bytes × Option FunCall)} (h : unnamedMacro rd ord fuel .bzl s = some out) (i : Nat) (name : Bytes) :
    (∃ c, (i, name, c) ∈ out) ↔ Candidate s i name ∧ CallsRule (world rd s) ⟨s.pkg, s.label, name⟩ := by
  constructor
  · rintro ⟨c, hc⟩
    exact (C71_reported_is_macro ho h _ hc).2
  · rintro ⟨h1, h2⟩
    unfold unnamedMacro at h
    rw [if_neg (by decide)] at h
    have := (checkDefs_spec (R := fun st => FilesOk (world rd s) rd st ∧ ∀ k, Exact (world rd s) rank k st)
      (A := fun n b => b = true ↔ Reach (world rd s) ⟨s.pkg, s.label, n⟩)
      (fun st n r st' hR hm => by
        obtain ⟨h1, h2, h3⟩ := isMacro_exact ho (fun f g e => hrank f g (edge_step e)) _ _ _ _ _ hR.1 (hR.2 _) hm
        exact ⟨⟨h1, fun k => h2.exact (hR.2 k)⟩, h3⟩) s.stmts 0 _ out rfl
      ⟨filesOk_start rd s, fun k f r hf => (by cases hf)⟩ h).2 i name (Nat.zero_le _) h1
    rcases this with h | h
    · exact h
    · exact absurd (h.2 (calls_reach hdot h2)) (by simp)

/-- The analysis ends: if finitely many functions are within reach, a budget larger than their number is enough (also when they call one another in circles). -/
theorem C71_terminates (ho : ∀ f l, (ord f l).Perm l) {U : List Fn} (hU : ∀ f ∈ U, ∀ g, Step (world rd s) f g → g ∈ U)
    (hs : ∀ i n, Candidate s i n → ⟨s.pkg, s.label, n⟩ ∈ U) (hf : U.length < fuel) (type : FileType) :
    ∃ out, unnamedMacro rd ord fuel type s = some out := by
  unfold unnamedMacro
  split
  · exact ⟨_, rfl⟩
  · suffices ∀ (l : List Expr) (i : Nat) (st : St), s.stmts.drop i = l → FilesOk (world rd s) rd st → ∃ out, checkDefs rd ord fuel s i st l = some out from
      this s.stmts 0 _ rfl (filesOk_start rd s)
    intro l
    induction l with
    | nil => intro i st _ _; exact ⟨_, rfl⟩
    | cons x l ih =>
      intro i st hl hok
      have hx : s.stmts[i]? = some x := by
        have h1 := congrArg (·[0]?) hl
        simpa using h1
      have hl' : s.stmts.drop (i + 1) = l := by
        rw [← List.drop_drop, hl]
        rfl
      by_cases hd : ∃ c p n ps b cp fc fm t, x = .defS c p n ps b cp fc fm t
      · obtain ⟨c, p, n, ps, b, cp, fc, fm, t, rfl⟩ := hd
        rw [checkDefs, checkDef]
        by_cases hskip : (hasPrefix n b!"_" || acceptsName ps) = true
        · rw [if_pos hskip]
          obtain ⟨out, ho⟩ := ih (i + 1) st hl' hok
          dsimp only
          rw [ho]
          exact ⟨_, rfl⟩
        · rw [if_neg hskip]
          rw [Bool.or_eq_true, hasPrefix_underscore, acceptsName_iff] at hskip
          have hcand : Candidate s i n := ⟨c, p, ps, b, cp, fc, fm, t, hx, fun e => hskip (.inl e), fun e => hskip (.inr e)⟩
          obtain ⟨r, st', hm, hok', -⟩ := isMacro_total ho (fun f hf g e => hU f hf g (edge_step e)) fuel st _ hok (hs i n hcand)
            (Nat.lt_of_le_of_lt (List.length_filter_le _ _) hf)
          rw [hm]
          obtain ⟨out, ho⟩ := ih (i + 1) st' hl' hok'
          dsimp only
          rw [ho]
          exact ⟨_, rfl⟩
      · have hcd : checkDefs rd ord fuel s i st (x :: l) = checkDefs rd ord fuel s (i + 1) st l := by
          cases x
          case defS => exact absurd ⟨_, _, _, _, _, _, _, _, _, rfl⟩ hd
          all_goals rfl
        rw [hcd]
        exact ih (i + 1) st hl' hok

/-- The first public function without an argument `name` is reported exactly when it creates targets, also with recursive functions. -/
theorem C71_first_reported_exactly (ho : ∀ f l, (ord f l).Perm l) (hdot : NoDots (world rd s)) {out : List (Nat × Bytes × Option FunCall)}
    (h : unnamedMacro rd ord fuel .bzl s = some out) {i : Nat} {name : Bytes} (hc : Candidate s i name) (hfirst : ∀ j < i, ∀ n, ¬ Candidate s j n) :
    (∃ c, (i, name, c) ∈ out) ↔ CallsRule (world rd s) ⟨s.pkg, s.label, name⟩ := by
  refine ⟨fun ⟨c, hm⟩ => (C71_reported_is_macro ho h _ hm).2.2, fun hcr => ?_⟩
  unfold unnamedMacro at h
  rw [if_neg (by decide)] at h
  suffices ∀ (l : List Expr) (k : Nat) (st : St) (out : List (Nat × Bytes × Option FunCall)), s.stmts.drop k = l → k ≤ i → FilesOk (world rd s) rd st → st.cache = [] →
      checkDefs rd ord fuel s k st l = some out → ∃ c, (i, name, c) ∈ out from this s.stmts 0 _ out rfl (Nat.zero_le _) (filesOk_start rd s) rfl h
  intro l
  induction l with
  | nil =>
    intro k st out hl hk
    obtain ⟨c, p, ps, b, cp, fc, fm, t, hg, -⟩ := hc
    have h1 : s.stmts.length ≤ k := List.drop_eq_nil_iff.1 hl
    rw [List.getElem?_eq_none (by omega)] at hg
    cases hg
  | cons x l ih =>
    intro k st out hl hk hok he h
    have hx : s.stmts[k]? = some x := by
      have h1 := congrArg (·[0]?) hl
      simpa using h1
    have hl' : s.stmts.drop (k + 1) = l := by
      rw [← List.drop_drop, hl]
      rfl
    rcases Nat.lt_or_ge k i with hki | hki
    · by_cases hd : ∃ c p n ps b cp fc fm t, x = .defS c p n ps b cp fc fm t
      · obtain ⟨c, p, n, ps, b, cp, fc, fm, t, rfl⟩ := hd
        rw [checkDefs, checkDef] at h
        split at h
        · cases h
        · rename_i r st' hcd
          split at hcd
          · injection hcd with hcd
            injection hcd with hc1 hc2
            subst hc1 hc2
            cases hr : checkDefs rd ord fuel s (k + 1) st l with
            | none => rw [hr] at h; cases h
            | some rest =>
              rw [hr] at h
              injection h with h
              obtain ⟨c, hcm⟩ := ih (k + 1) st rest hl' hki hok he hr
              exact ⟨c, h ▸ List.mem_append_right _ hcm⟩
          · rename_i hskip
            rw [Bool.or_eq_true, hasPrefix_underscore, acceptsName_iff] at hskip
            exact absurd ⟨c, p, ps, b, cp, fc, fm, t, hx, fun e => hskip (.inl e), fun e => hskip (.inr e)⟩ (hfirst k hki n)
      · have hcd : checkDefs rd ord fuel s k st (x :: l) = checkDefs rd ord fuel s (k + 1) st l := by
          cases x
          case defS => exact absurd ⟨_, _, _, _, _, _, _, _, _, rfl⟩ hd
          all_goals rfl
        rw [hcd] at h
        exact ih (k + 1) st out hl' hki hok he h
    · have : k = i := by omega
      subst this
      obtain ⟨c, p, ps, b, cp, fc, fm, t, hg, h1, h2⟩ := hc
      rw [hx] at hg
      cases hg
      rw [checkDefs, checkDef, if_neg (by rw [Bool.or_eq_true, hasPrefix_underscore, acceptsName_iff]; exact fun e => e.elim h1 h2)] at h
      cases hm : isMacro rd ord fuel st ⟨s.pkg, s.label, name⟩ with
      | none => rw [hm] at h; cases h
      | some q =>
        rw [hm] at h
        dsimp only at h
        have hq : q.1.isMacro = true := (isMacro_first ho hok he hm).2 (calls_reach hdot hcr)
        rw [if_pos hq] at h
        split at h
        · cases h
        · injection h with h
          subst h
          exact ⟨q.1.fc, by simp⟩

/-! ## Witnesses -/

/-- `n()` -/
def callN (n : Bytes) : Expr := .call {} (.ident { name := n }) {} [] {} false false
/-- `native.n()` -/
def callNative (n : Bytes) : Expr := .call {} (.dot {} (.ident { name := b!"native" }) {} {} n) {} [] {} false false
/-- `def n(): body` -/
def defN (n : Bytes) (body : List Expr) : Expr := .defS {} {} n [] body {} false false .nil

/-- ```
load("//lib:rules.bzl", other = "my_rule")
def quiet(): native.glob()
def make(): other()
def outer(): make()
def _private(): make()
``` -/
def exSrc : Src := ⟨b!"pkg", b!"a.bzl", [
  .load {} {} { value := b!"//lib:rules.bzl" } [{ name := b!"my_rule" }] [{ name := b!"other" }] {} true,
  defN b!"quiet" [callNative b!"glob"], defN b!"make" [callN b!"other"], defN b!"outer" [callN b!"make"], defN b!"_private" [callN b!"make"]]⟩

/-- `my_rule = rule()` -/
def exLib : Src := ⟨b!"lib", b!"rules.bzl", [.assign {} (.ident { name := b!"my_rule" }) {} b!"=" false (callN b!"rule")]⟩

/-- the reader finds that one file -/
def exReader : Reader := some fun p l => if p = b!"lib" ∧ l = b!"rules.bzl" then some exLib else none

theorem exSrc_data : analyzeFile (some exSrc) = { functions := [
    (b!"_private", [⟨⟨b!"pkg", b!"a.bzl", b!"make"⟩, b!"make", 0⟩]), (b!"outer", [⟨⟨b!"pkg", b!"a.bzl", b!"make"⟩, b!"make", 0⟩]),
    (b!"make", [⟨⟨b!"lib", b!"rules.bzl", b!"my_rule"⟩, b!"other", 0⟩]), (b!"quiet", [⟨⟨[], b!"<native>", b!"glob"⟩, b!"native.glob", 0⟩])] } := rfl

theorem exLib_data : analyzeFile (some exLib) = { rules := [b!"my_rule"] } := rfl

/-- the nodes of the files -/
theorem exNoDots : NoDots (world exReader exSrc) := by
  intro p l t ht d hd c n a ls e x y hn
  obtain ⟨stk, hs⟩ := (node_occ (stk := []) d _).1 hn
  have hs' : Expr.call c (.ident n) a ls e x y ∈ (Props.Walk.occ [] d).map (·.2) := List.mem_map.2 ⟨_, hs, rfl⟩
  unfold world at ht
  split at ht
  · cases ht
    simp only [exSrc, List.mem_cons, List.not_mem_nil, or_false] at hd
    rcases hd with rfl | rfl | rfl | rfl | rfl <;>
      (simp [Props.Walk.occ, Props.Walk.occL, defN, callN, callNative] at hs' <;> (try (rcases hs' with ⟨_, h, _⟩; subst h; decide)))
  · simp only [exReader, Option.bind_some] at ht
    split at ht
    · cases ht
      simp only [exLib, List.mem_cons, List.not_mem_nil, or_false] at hd
      subst hd
      simp [Props.Walk.occ, Props.Walk.occL, callN] at hs'
      rcases hs' with ⟨_, h, _⟩; subst h; decide
    · cases ht

theorem kind_data {src : Bytes → Bytes → Option Src} {f : Fn} {fd : FileData} (hn : f.filename ≠ nativeModule) (h : analyzeFile (src f.pkg f.filename) = fd) :
    kindOf src f = match fd.aliases.lookup f.name with
      | some g => .alias g
      | none => if fd.rules.contains f.name then .yes else match fd.functions.lookup f.name with
        | none => .no
        | some l => .calls l := by
  subst h
  unfold kindOf
  rw [if_neg hn]
  rfl

/-- no function of these files calls itself -/
theorem exRank : ∀ f g, Step (world exReader exSrc) f g →
    (fun f : Fn => if f.filename = b!"a.bzl" then (if f.name = b!"make" then 1 else 2) else 0) g <
    (fun f : Fn => if f.filename = b!"a.bzl" then (if f.name = b!"make" then 1 else 2) else 0) f := by
  intro f g h
  have h := step_edge exNoDots h
  obtain ⟨p, l, n⟩ := f
  by_cases hnat : l = nativeModule
  · have hk := kind_native_cases (src := world exReader exSrc) (f := ⟨p, l, n⟩) hnat
    unfold Edge at h
    rcases hk with hk | hk <;> simp [hk] at h
  · by_cases hp : (p, l) = (exSrc.pkg, exSrc.label)
    · have hl : l = b!"a.bzl" := congrArg Prod.snd hp
      have hk := kind_data (f := ⟨p, l, n⟩) hnat ((show analyzeFile (world exReader exSrc p l) = analyzeFile (some exSrc) by rw [world, if_pos hp]).trans exSrc_data)
      subst hl
      unfold Edge at h
      rw [hk] at h
      dsimp only at h
      rw [lookup_cons_eq, lookup_cons_eq, lookup_cons_eq, lookup_cons_eq] at h
      by_cases h1 : n = b!"_private"
      · subst h1; simp at h; subst h; simp
      by_cases h2 : n = b!"outer"
      · subst h2; simp at h; subst h; simp
      by_cases h3 : n = b!"make"
      · subst h3; simp at h; subst h; simp
      by_cases h4 : n = b!"quiet"
      · subst h4; simp at h; subst h; simp
      simp [h1, h2, h3, h4] at h
    · by_cases hq : p = b!"lib" ∧ l = b!"rules.bzl"
      · have hk := kind_data (f := ⟨p, l, n⟩) hnat ((show analyzeFile (world exReader exSrc p l) = analyzeFile (some exLib) by
          rw [world, if_neg hp]; simp only [exReader, Option.bind_some]; rw [if_pos hq]).trans exLib_data)
        unfold Edge at h
        rw [hk] at h
        by_cases h1 : n = b!"my_rule"
        · simp [h1] at h
        · simp [h1] at h
      · have hk := kind_data (f := ⟨p, l, n⟩) hnat (show analyzeFile (world exReader exSrc p l) = {} by
          rw [world, if_neg hp]; simp only [exReader, Option.bind_some]; rw [if_neg hq]; rfl)
        unfold Edge at h
        rw [hk] at h
        simp at h

/-- two functions are reported -/
theorem C71_reports_two : (unnamedMacro exReader (fun _ l => l) 5 .bzl exSrc).map (·.map fun x => (x.1, x.2.1)) = some [(2, b!"make"), (3, b!"outer")] := by decide +kernel

/-- ```
def f():
    g()
    native.cc_library()
def g():
    f()
``` -/
def exLoop : Src := ⟨b!"pkg", b!"a.bzl", [defN b!"f" [callN b!"g", callNative b!"cc_library"], defN b!"g" [callN b!"f"]]⟩

/-- Both functions create targets. -/
theorem exLoop_calls (n : Bytes) (h : n = b!"f" ∨ n = b!"g") : CallsRule (world none exLoop) ⟨b!"pkg", b!"a.bzl", n⟩ := by
  have hf : CallsRule (world none exLoop) ⟨b!"pkg", b!"a.bzl", b!"f"⟩ := by
    refine .call _ exLoop (defN b!"f" [callN b!"g", callNative b!"cc_library"]) ⟨[], b!"<native>", b!"cc_library"⟩ (by decide) (by simp [world, exLoop]) rfl ?_ rfl
      (.native {} {} { name := b!"native" } {} {} _ {} [] {} false false ?_ rfl) (.native _ rfl (by decide))
    · rintro ⟨c, i, p, op, lb, c', m, a, l, e, x, y, hm, -⟩
      simp [exLoop, defN] at hm
    · exact .child _ (callNative b!"cc_library") _ rfl (by simp [slots, defN]) (.self _ rfl)
  rcases h with h | h
  · exact h ▸ hf
  · subst h
    refine .call _ exLoop (defN b!"g" [callN b!"f"]) ⟨b!"pkg", b!"a.bzl", b!"f"⟩ (by decide) (by simp [world, exLoop]) rfl ?_ rfl
      (.name {} { name := b!"f" } {} [] {} false false ?_) hf
    · rintro ⟨c, i, p, op, lb, c', m, a, l, e, x, y, hm, -⟩
      simp [exLoop, defN] at hm
    · exact .child _ (callN b!"f") _ rfl (by simp [slots, defN]) (.self _ rfl)

/-- With recursive functions the result depends on the order in which Go iterates over a map: `g` is reported or not, although it creates targets
(the answer for `g` is computed, and stored for good, while the one for `f` is not known yet). -/
theorem C71_recursion_depends_on_map_order :
    (unnamedMacro none (fun _ l => l) 9 .bzl exLoop).map (·.map fun x => (x.1, x.2.1)) = some [(0, b!"f")] ∧
    (unnamedMacro none (fun _ l => l.reverse) 9 .bzl exLoop).map (·.map fun x => (x.1, x.2.1)) = some [(0, b!"f"), (1, b!"g")] := by
  constructor <;> decide +kernel

end Verif.Props.Macro
