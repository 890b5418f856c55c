import Verif.Model.Types
import Verif.Props.Bzlenv
import Verif.Proofs.Walk
/-
C90: the types of expressions (`DetectTypes`).
-/
namespace Verif.Props.Types
open Verif Verif.Syntax Verif.Walk Verif.Bzlenv Verif.Types Verif.Props.Bzlenv

/-! ## Specification -/

mutual
/-- the visited nodes, children before their parents -/
def post : TNode → List TNode
  | .node e b s t k => postL k ++ (if s then [.node e b s t k] else [])
/-- the visited nodes of a list -/
def postL : List TNode → List TNode
  | [] => []
  | k :: l => post k ++ postL l
end

/-- the nodes that `DetectTypes` visits in a file, in this order -/
def visits (f : Expr) : List TNode := postL (detect f)

/-- child number `i` of the node has the type -/
def KidTy (k : TNode) (i : Nat) (t : Ty) : Prop := ∃ c, k.kids[i]? = some c ∧ c.ty = t

/-- a token of an integer -/
inductive IntToken : Bytes → Prop
  | decimal (d) : d ≠ [] → (∀ b ∈ d, c!"0" ≤ b ∧ b ≤ c!"9") → IntToken d
  | hex (x d) : x = c!"x" ∨ x = c!"X" → d ≠ [] →
      (∀ b ∈ d, (c!"0" ≤ b ∧ b ≤ c!"9") ∨ (c!"a" ≤ b ∧ b ≤ c!"f") ∨ (c!"A" ≤ b ∧ b ≤ c!"F")) → IntToken (c!"0" :: x :: d)
  | octal (x d) : x = c!"o" ∨ x = c!"O" → d ≠ [] → (∀ b ∈ d, c!"0" ≤ b ∧ b ≤ c!"7") → IntToken (c!"0" :: x :: d)

/-- the node assigns a value of this (known) type to the variable; `x %= e` says something about `x` only if `e` is a string -/
def Assigns (k : TNode) (id : Nat) (t : Ty) : Prop :=
  ∃ c i p op lb rhs info, k.expr = .assign c (.ident i) p op lb rhs ∧ get i.name k.scope = some info ∧ info.id = id ∧
    KidTy k 1 t ∧ t ≠ .unknown ∧ (op = b!"%=" → t = .string)

/-- the type of the last of the assignments to the variable -/
def LastAssigned (before : List TNode) (id : Nat) (t : Ty) : Prop :=
  ∃ a k b, before = a ++ k :: b ∧ Assigns k id t ∧ ∀ x ∈ b, ∀ t', ¬ Assigns x id t'

/-- comparisons -/
def comparisons : List Bytes := [b!"<", b!">", b!"==", b!"!=", b!"<=", b!">=", b!"in", b!"not in"]

/-- operators that are taken to have operands and results of one type -/
def arithmetic : List Bytes := [b!"+", b!"-", b!"*", b!"/", b!"//", b!"%", b!"|"]

/-- functions that return values of a known type -/
def constructors : List (Bytes × Ty) :=
  [(b!"bool", .bool), (b!"int", .int), (b!"float", .float), (b!"str", .string), (b!"depset", .depset), (b!"dict", .dict), (b!"list", .list)]

/-- the rules for types; `before` are the nodes that were visited before -/
inductive Rule (before : List TNode) (k : TNode) : Ty → Prop
  | string (s) : k.expr = .string s → Rule before k .string
  | dict (c s l e f) : k.expr = .dict c s l e f → Rule before k .dict
  | list (c s l e f) : k.expr = .list c s l e f → Rule before k .list
  | int (c s tok) : k.expr = .literal c s tok → IntToken tok → Rule before k .int
  | float (c s tok) : k.expr = .literal c s tok → ¬ IntToken tok → Rule before k .float
  | dictCompr (c lb b cl f e) : k.expr = .compr c true lb b cl f e → Rule before k .dict
  | listCompr (c lb b cl f e) : k.expr = .compr c false lb b cl f e → Rule before k .list
  | call (c i s l e a b t) : k.expr = .call c (.ident i) s l e a b → (i.name, t) ∈ constructors → Rule before k t
  | args (c c' x p q s l e a b d) : k.expr = .call c (.dot c' x p q b!"args") s l e a b → k.kids[0]? = some d → KidTy d 0 .ctxActions →
      Rule before k .ctxActionsArgs
  | paren (c s x e f t) : k.expr = .paren c s x e f → KidTy k 0 t → t ≠ .unknown → Rule before k t
  | bool (i) : k.expr = .ident i → i.name = b!"True" ∨ i.name = b!"False" → Rule before k .bool
  | none (i) : k.expr = .ident i → i.name = b!"None" → Rule before k .none
  | ctx (i info) : k.expr = .ident i → i.name = b!"ctx" → get i.name k.scope = some info → info.kind = .parameter → Rule before k .ctx
  | var (i info t) : k.expr = .ident i → i.name ∉ [b!"True", b!"False", b!"None"] → get i.name k.scope = some info →
      ¬ (i.name = b!"ctx" ∧ info.kind = .parameter) → LastAssigned before info.id t → Rule before k t
  | actions (c x p q) : k.expr = .dot c x p q b!"actions" → KidTy k 0 .ctx → Rule before k .ctxActions
  | compare (c x p op lb y) : k.expr = .binary c x p op lb y → op ∈ comparisons → Rule before k .bool
  | left (c x p op lb y t) : k.expr = .binary c x p op lb y → op ∈ arithmetic → KidTy k 0 t → t ≠ .unknown → Rule before k t
  | right (c x p op lb y t) : k.expr = .binary c x p op lb y → op ∈ arithmetic → ¬ (∃ t', KidTy k 0 t' ∧ t' ≠ .unknown) → KidTy k 1 t → t ≠ .unknown →
      (op = b!"%" → t = .string) → Rule before k t

/-- the node has a block of its own -/
def Scoped : Expr → Prop
  | .defS .. => True
  | .compr .. => True
  | .file .. => True
  | _ => False

/-- the node is visited, if it is there -/
def Visited (k : TNode) : Prop := k.seen = !k.expr.isNil

/-- an argument is visited, but of `x = e` only `e` -/
def VisitedArg (k : TNode) : Prop :=
  (∃ c x p op lb e kx ke, k.expr = .assign c x p op lb e ∧ k.seen = false ∧ k.kids = [kx, ke] ∧ (∀ z ∈ kx.nodes, z.seen = false) ∧ Visited ke) ∨
  ((∀ c x p op lb e, k.expr ≠ .assign c x p op lb e) ∧ Visited k)

/-- a node of the tree: it has the children of the node of the file, which are in the same scope unless the node has a block of its own; a node
that is not visited has no type; the children of a visited node are visited, except for the names of arguments -/
def Local (k : TNode) : Prop :=
  (k.seen = false → k.ty = .unknown) ∧ k.kids.map TNode.expr = slots k.expr ∧ (¬ Scoped k.expr → ∀ c ∈ k.kids, c.scope = k.scope) ∧
  (k.seen = true → ((∀ c f s l e a b, k.expr ≠ .call c f s l e a b) → ∀ x ∈ k.kids, Visited x) ∧
    (∀ c f s l e a b, k.expr = .call c f s l e a b → (∀ x ∈ k.kids.take 1, Visited x) ∧ ∀ x ∈ k.kids.drop 1, VisitedArg x))

/-- What Starlark says about the node, if `actual` gives the types of expressions and `var` those of the variables, with the assumptions of `DetectTypes`: the
functions are the built-in ones, `ctx` as a parameter is the context of a rule, a variable has one type, and so have the operands and the result of an
operator (except for `%`, which formats anything into a string). -/
def Fact (actual : List Block → Expr → Ty) (var : Nat → Ty) (b : List Block) : Expr → Prop
  | .string s => actual b (.string s) = .string
  | .dict c s l e f => actual b (.dict c s l e f) = .dict
  | .list c s l e f => actual b (.list c s l e f) = .list
  | .literal c s tok => (IntToken tok → actual b (.literal c s tok) = .int) ∧ (¬ IntToken tok → actual b (.literal c s tok) = .float)
  | .compr c curly lb body cl f e => actual b (.compr c curly lb body cl f e) = if curly then .dict else .list
  | .call c f s l e a a' =>
    (∀ i t, f = .ident i → (i.name, t) ∈ constructors → actual b (.call c f s l e a a') = t) ∧
    (∀ c' x p q, f = .dot c' x p q b!"args" → actual b x = .ctxActions → actual b (.call c f s l e a a') = .ctxActionsArgs)
  | .paren c s x e f => actual b (.paren c s x e f) = actual b x
  | .ident i =>
    (i.name = b!"True" ∨ i.name = b!"False" → actual b (.ident i) = .bool) ∧
    (i.name = b!"None" → actual b (.ident i) = .none) ∧
    (∀ info, i.name ∉ [b!"True", b!"False", b!"None"] → get i.name b = some info →
      actual b (.ident i) = if i.name = b!"ctx" ∧ info.kind = .parameter then .ctx else var info.id)
  | .dot c x p q name => name = b!"actions" → actual b x = .ctx → actual b (.dot c x p q name) = .ctxActions
  | .binary c x p op lb y =>
    (op ∈ comparisons → actual b (.binary c x p op lb y) = .bool) ∧
    (op ∈ arithmetic → actual b (.binary c x p op lb y) = actual b x) ∧
    (op ∈ arithmetic → op ≠ b!"%" → actual b (.binary c x p op lb y) = actual b y) ∧
    (op = b!"%" → actual b y = .string → actual b (.binary c x p op lb y) = .string)
  | .assign _ lhs _ op _ rhs =>
    ∀ i info, lhs = .ident i → get i.name b = some info →
      (op ≠ b!"%=" → var info.id = actual b rhs) ∧ (op = b!"%=" → actual b rhs = .string → var info.id = .string)
  | _ => True

/-! ## Proofs -/

/-- the variables after a node -/
def step (v : Vars) (k : TNode) : Vars := update v k.scope k.expr k.kids

/-- every node has the type computed with the variables at that time -/
def Timed (v : Vars) : List TNode → Prop
  | [] => True
  | k :: l => k.ty = typeOf v k.scope k.expr k.kids ∧ Timed (step v k) l

theorem timed_append {v : Vars} {a b : List TNode} : Timed v (a ++ b) ↔ Timed v a ∧ Timed (a.foldl step v) b := by
  induction a generalizing v with
  | nil => simp [Timed]
  | cons k a ih => simp [Timed, ih, and_assoc]

theorem timed_at {v : Vars} {a b : List TNode} {k : TNode} (h : Timed v (a ++ k :: b)) :
    k.ty = typeOf (a.foldl step v) k.scope k.expr k.kids := (timed_append.1 h).2.1

/-- what a visit does -/
def Res (Q : TNode → Prop) (s : Vars × List TNode) (env : Env) (x : Expr) (r : (Vars × List TNode) × Env) (nd : TNode) : Prop :=
  Q nd ∧ r.1.2 = s.2 ++ [nd] ∧ nd.expr = x ∧ nd.scope = env.blocks ∧ Pres env r.2 ∧ r.1.1 = (post nd).foldl step s.1 ∧ Timed s.1 (post nd) ∧
    ∀ k ∈ nd.nodes, Local k

/-- what the visits of children do -/
def ResL (Q : TNode → Prop) (s : Vars × List TNode) (env : Env) (l : List Expr) (r : (Vars × List TNode) × Env) (nds : List TNode) : Prop :=
  (∀ k ∈ nds, Q k) ∧ r.1.2 = s.2 ++ nds ∧ nds.map TNode.expr = l ∧ (∀ k ∈ nds, k.scope = env.blocks) ∧ Pres env r.2 ∧ r.1.1 = (postL nds).foldl step s.1 ∧
    Timed s.1 (postL nds) ∧ ∀ k ∈ nodesL nds, Local k

theorem pres_refl (env : Env) : Pres env env := ⟨rfl, rfl, Nat.le_refl _, .inl rfl⟩

theorem resL_nil (Q : TNode → Prop) (s : Vars × List TNode) (env : Env) : ResL Q s env [] (s, env) [] :=
  ⟨by simp, by simp, rfl, by simp, pres_refl env, by simp [postL], by simp [postL, Timed], by simp [nodesL]⟩

theorem resL_cons {Q : TNode → Prop} {s : Vars × List TNode} {env : Env} {x : Expr} {l : List Expr} {r r' : (Vars × List TNode) × Env} {nd : TNode} {nds : List TNode}
    (h : Res Q s env x r nd) (h' : ResL Q r.1 r.2 l r' nds) : ResL Q s env (x :: l) r' (nd :: nds) := by
  obtain ⟨h0, h1, h2, h3, h4, h5, h6, h7⟩ := h
  obtain ⟨g0, g1, g2, g3, g4, g5, g6, g7⟩ := h'
  refine ⟨by simpa using ⟨h0, g0⟩, by rw [g1, h1]; simp, by simp [h2, g2], ?_, h4.trans g4, ?_, ?_, ?_⟩
  · intro k hk
    rcases List.mem_cons.1 hk with rfl | hk
    · exact h3
    · rw [g3 k hk, h4.1]
  · rw [g5, h5]; simp [postL]
  · rw [postL, timed_append]; exact ⟨h6, by rw [← h5]; exact g6⟩
  · intro k hk
    rw [nodesL] at hk
    rcases List.mem_append.1 hk with hk | hk
    · exact h7 k hk
    · exact g7 k hk

theorem callSlots_res (Q : TNode → Prop) (fct : Vars × List TNode → Env → Expr → (Vars × List TNode) × Env) :
    ∀ (l : List Expr), (∀ x ∈ l, ∀ s env, env.blocks ≠ [] → ∃ nd, Res Q s env x (fct s env x) nd) → ∀ (s : Vars × List TNode) (env : Env), env.blocks ≠ [] →
      ∃ nds, ResL Q s env l (callSlots fct s env l) nds := by
  intro l
  induction l with
  | nil => intro _ s env _; exact ⟨[], resL_nil Q s env⟩
  | cons x l ih =>
    intro h s env hb
    obtain ⟨nd, hn⟩ := h x (by simp) s env hb
    obtain ⟨nds, hns⟩ := ih (fun y hy => h y (by simp [hy])) (fct s env x).1 (fct s env x).2 (by rw [hn.2.2.2.2.1.1]; exact hb)
    exact ⟨nd :: nds, resL_cons hn hns⟩

mutual
theorem mem_self (k : TNode) : k ∈ k.nodes := by
  cases k; simp [TNode.nodes]
end

theorem unseen_local (b : List Block) : ∀ (n : Nat) (x : Expr), size x ≤ n → (unseen b n x).expr = x ∧ (unseen b n x).scope = b ∧
    post (unseen b n x) = [] ∧ ∀ k ∈ (unseen b n x).nodes, Local k ∧ k.seen = false := by
  intro n
  induction n with
  | zero => intro x h; exact absurd (size_pos x) (by omega)
  | succ n ih =>
    intro x h
    have hs : ∀ y ∈ slots x, size y ≤ n := fun y hy => by have := size_slot_lt hy; omega
    refine ⟨rfl, rfl, ?_, ?_⟩
    · unfold unseen
      rw [post]
      simp only [Bool.false_eq_true, if_false, List.append_nil]
      have : ∀ l : List Expr, (∀ y ∈ l, size y ≤ n) → postL (l.map (unseen b n)) = [] := by
        intro l
        induction l with
        | nil => intro _; simp [postL]
        | cons y l ihl => intro h; simp [postL, (ih y (h y (by simp))).2.2.1, ihl fun z hz => h z (by simp [hz])]
      exact this _ hs
    · intro k hk
      unfold unseen at hk
      rw [TNode.nodes] at hk
      rcases List.mem_cons.1 hk with rfl | hk
      · refine ⟨⟨fun _ => rfl, ?_, ?_, fun h => absurd h (by simp [TNode.seen])⟩, rfl⟩
        · show ((slots x).map (unseen b n)).map TNode.expr = slots x
          rw [List.map_map]
          conv => rhs; rw [← List.map_id (slots x)]
          apply List.map_congr_left
          intro y hy
          exact (ih y (hs y hy)).1
        · intro _ c hc
          obtain ⟨y, hy, rfl⟩ := List.mem_map.1 hc
          exact (ih y (hs y hy)).2.1
      · have : ∀ l : List Expr, (∀ y ∈ l, size y ≤ n) → ∀ k ∈ nodesL (l.map (unseen b n)), Local k ∧ k.seen = false := by
          intro l
          induction l with
          | nil => intro _ k hk; simp [nodesL] at hk
          | cons y l ihl =>
            intro h k hk
            rw [List.map_cons, nodesL] at hk
            rcases List.mem_append.1 hk with hk | hk
            · exact (ih y (h y (by simp))).2.2.2 k hk
            · exact ihl (fun z hz => h z (by simp [hz])) k hk
        exact this _ hs k hk

theorem callArgs_res (n : Nat) (fct : Vars × List TNode → Env → Expr → (Vars × List TNode) × Env) :
    ∀ (l : List Expr), (∀ x ∈ l, size x ≤ n ∧ ∀ y, y = x ∨ y ∈ slots x → ∀ s env, env.blocks ≠ [] → ∃ nd, Res Visited s env y (fct s env y) nd) →
      ∀ (s : Vars × List TNode) (env : Env), env.blocks ≠ [] → ∃ nds, ResL VisitedArg s env l (callArgs n fct s env l) nds := by
  intro l
  induction l with
  | nil => intro _ s env _; exact ⟨[], resL_nil _ s env⟩
  | cons x l ih =>
    intro h s env hb
    have step1 : ∀ r nd, Res VisitedArg s env x r nd → callArgs n fct s env (x :: l) = callArgs n fct r.1 r.2 l →
        ∃ nds, ResL VisitedArg s env (x :: l) (callArgs n fct s env (x :: l)) nds := by
      intro r nd hn e
      obtain ⟨nds, hns⟩ := ih (fun y hy => h y (by simp [hy])) r.1 r.2 (by rw [hn.2.2.2.2.1.1]; exact hb)
      exact ⟨nd :: nds, by rw [e]; exact resL_cons hn hns⟩
    by_cases hx : ∃ c lhs p op lb rhs, x = .assign c lhs p op lb rhs
    · obtain ⟨c, lhs, p, op, lb, rhs, rfl⟩ := hx
      obtain ⟨hsz, hf⟩ := h _ (List.mem_cons_self ..)
      obtain ⟨nd, h0, h1, h2, h3, h4, h5, h6, h7⟩ := hf rhs (Or.inr (by simp [slots])) (s.1, []) env hb
      have hl : size lhs ≤ n := by
        have := size_slot_lt (v := .assign c lhs p op lb rhs) (x := lhs) (by simp [slots])
        omega
      obtain ⟨u1, u2, u3, u4⟩ := unseen_local env.blocks n lhs hl
      have hk : (fct (s.1, []) env rhs).1.2 = [nd] := by rw [h1]; rfl
      refine step1 (((fct (s.1, []) env rhs).1.1,
        s.2 ++ [.node (.assign c lhs p op lb rhs) env.blocks false .unknown (unseen env.blocks n lhs :: (fct (s.1, []) env rhs).1.2)]), (fct (s.1, []) env rhs).2)
        (.node (.assign c lhs p op lb rhs) env.blocks false .unknown [unseen env.blocks n lhs, nd]) ?_ rfl
      rw [hk]
      have hp : post (.node (.assign c lhs p op lb rhs) env.blocks false .unknown [unseen env.blocks n lhs, nd]) = post nd := by
        rw [post]; simp [postL, u3]
      refine ⟨.inl ⟨c, lhs, p, op, lb, rhs, _, _, rfl, rfl, rfl, fun z hz => (u4 z hz).2, h0⟩, rfl, rfl, rfl, h4, by rw [hp]; exact h5, by rw [hp]; exact h6, ?_⟩
      intro k hk
      rw [TNode.nodes] at hk
      simp only [nodesL, List.append_nil, List.mem_cons, List.mem_append] at hk
      rcases hk with rfl | hk | hk
      · refine ⟨fun _ => rfl, by show [(unseen env.blocks n lhs).expr, nd.expr] = [lhs, rhs]; rw [u1, h2], ?_, fun h => absurd h (by simp [TNode.seen])⟩
        intro _ d hd
        simp only [TNode.kids, List.mem_cons, List.not_mem_nil, or_false] at hd
        rcases hd with rfl | rfl
        · exact u2
        · exact h3
      · exact (u4 k hk).1
      · exact h7 k hk
    · obtain ⟨nd, hn⟩ := (h x (by simp)).2 x (Or.inl rfl) s env hb
      refine step1 _ nd ⟨.inr ⟨fun c x' p op lb e he => hx ⟨c, x', p, op, lb, e, hn.2.2.1.symm.trans he⟩, hn.1⟩, hn.2⟩ ?_
      cases x with
      | assign c lhs p op lb rhs => exact absurd ⟨c, lhs, p, op, lb, rhs, rfl⟩ hx
      | _ => rfl

theorem walkOnceEnv_fst {σ : Type} (fct : σ → Env → Expr → σ × Env) (x : Expr) (hf : ∀ c l, x ≠ .file c l) (s : σ) (env : Env) (hb : env.blocks ≠ []) :
    ∃ env1, (walkOnceEnv fct x s env).1 = (callSlots fct s env1 (slots x)).1 ∧ env1.blocks ≠ [] ∧ (¬ Scoped x → env1.blocks = env.blocks) := by
  cases x with
  | file c l => exact absurd rfl (hf c l)
  | defS c p n ps b cp fc fm t =>
    have ha := adds_declareParams ps { enterBlock { env with stack := env.stack ++ [.defS c p n ps b cp fc fm t] } with
      function := some (.defS c p n ps b cp fc fm t) }
    have hin : InDef { enterBlock { env with stack := env.stack ++ [.defS c p n ps b cp fc fm t] } with
      function := some (.defS c p n ps b cp fc fm t) } := ⟨nofun, by simp [enterBlock]⟩
    obtain ⟨new, g1, _⟩ := adds_trans ha (adds_declareLocals b _ (inDef_adds ha hin)) [] env.blocks rfl
    exact ⟨_, rfl, by rw [g1]; simp, fun h => absurd trivial h⟩
  | compr c cu lb b cl fm e =>
    obtain ⟨new, g1, _⟩ := adds_declareClauses (.compr c cu lb b cl fm e) cl (enterBlock { env with stack := env.stack ++ [.compr c cu lb b cl fm e] })
      [] env.blocks rfl
    exact ⟨_, rfl, by rw [g1]; simp, fun h => absurd trivial h⟩
  | _ => exact ⟨_, rfl, hb, fun _ => rfl⟩

/-- no file inside -/
def NoFile (x : Expr) : Prop := (∀ c l, x ≠ .file c l) ∧ ∀ c l, ¬ Inside x (.file c l)

theorem noFile_slot {x y : Expr} (h : NoFile x) (hy : y ∈ slots x) : NoFile y := by
  refine ⟨fun c l e => h.2 c l (by subst e; exact .slot _ hy), fun c l hi => h.2 c l ?_⟩
  have : ∀ z, Inside y z → Inside x z := by
    intro z hz
    induction hz with
    | slot z hz => exact .deeper _ _ (.slot _ hy) hz
    | deeper z w _ hw ih => exact .deeper _ _ ih hw
  exact this _ hi

theorem infer_res : ∀ (n : Nat) (x : Expr), size x ≤ n → NoFile x → ∀ (s : Vars × List TNode) (env : Env), env.blocks ≠ [] →
    ∃ nd, Res Visited s env x (infer n s env x) nd := by
  intro n
  induction n with
  | zero => intro x h; exact absurd (size_pos x) (by omega)
  | succ n ih =>
    intro x hsz hnf s env hb
    unfold infer
    by_cases hx : x.isNil
    · rw [if_pos hx]
      refine ⟨_, by simp [Visited, TNode.seen, TNode.expr, hx], rfl, rfl, rfl, pres_refl env, by simp [post, postL], by simp [post, postL, Timed], ?_⟩
      intro k hk
      simp only [TNode.nodes, nodesL, List.mem_cons, List.not_mem_nil, or_false] at hk
      subst hk
      refine ⟨fun _ => rfl, ?_, fun _ c hc => absurd hc (by simp [TNode.kids]), fun h => absurd h (by simp [TNode.seen])⟩
      cases x <;> first | rfl | (exact absurd hx (by simp [Expr.isNil]))
    rw [if_neg hx]
    have hs : ∀ y ∈ slots x, size y ≤ n := fun y hy => by have := size_slot_lt hy; omega
    have main : ∃ kids, (walkOnce n (infer n) x (s.1, []) env).1.2 = kids ∧ kids.map TNode.expr = slots x ∧ (¬ Scoped x → ∀ k ∈ kids, k.scope = env.blocks) ∧
        Pres env (walkOnce n (infer n) x (s.1, []) env).2 ∧ (walkOnce n (infer n) x (s.1, []) env).1.1 = (postL kids).foldl step s.1 ∧
        Timed s.1 (postL kids) ∧ (∀ k ∈ nodesL kids, Local k) ∧
        ((∀ c f s l e a b, x ≠ .call c f s l e a b) → ∀ k ∈ kids, Visited k) ∧
        (∀ c f s l e a b, x = .call c f s l e a b → (∀ k ∈ kids.take 1, Visited k) ∧ ∀ k ∈ kids.drop 1, VisitedArg k) := by
      by_cases hcall : ∃ c f ls l e a b, x = .call c f ls l e a b
      · obtain ⟨c, f, ls, l, e, a, b, rfl⟩ := hcall
        obtain ⟨nd, hn⟩ := ih f (hs f (by simp [slots])) (noFile_slot hnf (by simp [slots])) (s.1, []) env hb
        obtain ⟨nds, hns⟩ := callArgs_res n (infer n) l (fun y hy => ⟨hs y (by simp [slots, hy]), fun z hz s env hb => by
            rcases hz with rfl | hz
            · exact ih _ (hs _ (by simp [slots, hy])) (noFile_slot hnf (by simp [slots, hy])) s env hb
            · have h1 : NoFile y := noFile_slot hnf (by simp [slots, hy])
              have h2 := size_slot_lt hz
              have h3 := hs y (by simp [slots, hy])
              exact ih z (by omega) (noFile_slot h1 hz) s env hb⟩)
          (infer n (s.1, []) env f).1 (infer n (s.1, []) env f).2 (by rw [hn.2.2.2.2.1.1]; exact hb)
        have hn' : Res (fun _ => True) (s.1, []) env f (infer n (s.1, []) env f) nd := ⟨trivial, hn.2⟩
        have hns' : ResL (fun _ => True) _ _ l _ nds := ⟨fun _ _ => trivial, hns.2⟩
        obtain ⟨_, g1, g2, g3, g4, g5, g6, g7⟩ := resL_cons hn' hns'
        refine ⟨nd :: nds, by rw [walkOnce]; simpa using g1, g2, fun _ => g3, g4, g5, g6, g7, fun h => absurd rfl (h c f ls l e a b), fun _ _ _ _ _ _ _ _ => ⟨?_, ?_⟩⟩
        · simpa using hn.1
        · simpa using hns.1
      · have e : walkOnce n (infer n) x (s.1, []) env = walkOnceEnv (infer n) x (s.1, []) env := by
          cases x with
          | call c f ls l e a b => exact absurd ⟨c, f, ls, l, e, a, b, rfl⟩ hcall
          | _ => rfl
        rw [e]
        have hr : ∀ y ∈ slots x, ∀ s env, env.blocks ≠ [] → ∃ nd, Res Visited s env y (infer n s env y) nd := fun y hy s env hb =>
          ih y (hs y hy) (noFile_slot hnf hy) s env hb
        obtain ⟨env1, e1, e2, e3⟩ := walkOnceEnv_fst (infer n) x hnf.1 (s.1, []) env hb
        obtain ⟨nds, g0, g1, g2, g3, g4, g5, g6, g7⟩ := callSlots_res Visited (infer n) (slots x) hr (s.1, []) env1 e2
        rw [e1]
        refine ⟨nds, by rw [g1]; rfl, g2, fun h k hk => by rw [g3 k hk, e3 h], ?_, g5, g6, g7, fun _ => g0,
          fun c f s l e a b h => absurd ⟨c, f, s, l, e, a, b, h⟩ hcall⟩
        exact C56_balanced _ _ _ _ hb hnf.1 fun s env y hy hb => by
          obtain ⟨_, h⟩ := hr y hy s env hb
          exact h.2.2.2.2.1
    obtain ⟨kids, m1, m2, m3, m4, m5, m6, m7, m8, m9⟩ := main
    have hp : ∀ b t, post (.node x b true t kids) = postL kids ++ [.node x b true t kids] := by intro b t; rw [post]; simp
    dsimp only
    rw [m1]
    refine ⟨_, by simp [Visited, TNode.seen, TNode.expr, hx], rfl, rfl, ?_, m4, ?_, ?_, ?_⟩
    · exact m4.1
    · rw [hp, List.foldl_append, ← m5]; rfl
    · rw [hp, timed_append]
      refine ⟨m6, ?_, trivial⟩
      rw [← m5]; rfl
    · intro k hk
      rw [TNode.nodes] at hk
      rcases List.mem_cons.1 hk with rfl | hk
      · exact ⟨fun h => absurd h (by simp [TNode.seen]), m2, fun h c hc => by rw [m3 h c hc]; exact m4.1.symm, fun _ => ⟨m8, m9⟩⟩
      · exact m7 k hk

/-- the tree of a file -/
theorem detect_file (c : Comments) (l : List Expr) (hf : ∀ c' l', ¬ Inside (.file c l) (.file c' l')) :
    ∃ b kids, detect (.file c l) = [.node (.file c l) b true .unknown kids] ∧ kids.map TNode.expr = l ∧ Timed [] (visits (.file c l)) ∧
      (∀ k ∈ nodes (.file c l), Local k) := by
  unfold visits nodes detect
  have e : size (.file c l) = sizeL l + 1 := by rw [size]; omega
  rw [e]
  unfold infer
  rw [if_neg (by simp [Expr.isNil])]
  have hs : ∀ y ∈ l, size y ≤ sizeL l := fun y hy => by
    have := size_slot_lt (v := .file c l) (x := y) (by simpa [slots] using hy)
    omega
  have hn : ∀ y ∈ l, NoFile y := by
    intro y hy
    refine ⟨fun c' l' e => hf c' l' (by subst e; exact .slot _ (by simpa [slots] using hy)), fun c' l' hi => hf c' l' ?_⟩
    have : ∀ z, Inside y z → Inside (.file c l) z := by
      intro z hz
      induction hz with
      | slot z hz => exact .deeper _ _ (.slot _ (by simpa [slots] using hy)) hz
      | deeper z w _ hw ih => exact .deeper _ _ ih hw
    exact this _ hi
  have hb : (declareGlobals { ({} : Env) with stack := ({} : Env).stack ++ [.file c l] } l).blocks ≠ [] :=
    (adds_fun (adds_declareGlobals l _ rfl (by simp)) (by simp)).1
  obtain ⟨nds, g0, g1, g2, g3, g4, g5, g6, g7⟩ := callSlots_res Visited (infer (sizeL l)) l (fun y hy s env hb => infer_res _ y (hs y hy) (hn y hy) s env hb)
    ([], []) _ hb
  generalize hB : (walkOnce (sizeL l) (infer (sizeL l)) (.file c l) ([], []) {}).2.blocks = B
  have hk : (walkOnce (sizeL l) (infer (sizeL l)) (.file c l) ([], []) {}).1.2 = nds := by
    show (callSlots (infer (sizeL l)) ([], []) (declareGlobals _ l) (slots (.file c l))).1.2 = nds
    exact g1.trans (by simp)
  dsimp only
  rw [hk, hB]
  refine ⟨B, nds, rfl, g2, ?_, ?_⟩
  · show Timed [] (postL [.node (.file c l) B true .unknown nds])
    simp only [postL, post, List.append_nil, if_true]
    rw [timed_append]
    exact ⟨g6, rfl, trivial⟩
  · intro k hk
    have hk' : k ∈ nodesL [.node (.file c l) B true .unknown nds] := hk
    simp only [nodesL, TNode.nodes, List.append_nil, List.mem_cons] at hk'
    rcases hk' with rfl | hk'
    · exact ⟨fun h => absurd h (by simp [TNode.seen]), g2, fun h => absurd trivial h, fun _ => ⟨fun _ => g0, fun c' f s l' e a b h => by cases h⟩⟩
    · exact g7 k hk'

theorem kidTy_iff {k : TNode} {i : Nat} {t : Ty} (ht : t ≠ .unknown) : kidTy i k.kids = t ↔ KidTy k i t := by
  unfold kidTy KidTy
  cases h : k.kids[i]? with
  | none => simp [Ne.symm ht]
  | some c => simp

theorem kidTy_unknown {k : TNode} {i : Nat} : kidTy i k.kids = .unknown ↔ ¬ ∃ t, KidTy k i t ∧ t ≠ .unknown := by
  unfold kidTy KidTy
  cases h : k.kids[i]? with
  | none => simp
  | some c => simp

theorem all_iff {p : UInt8 → Bool} {q : UInt8 → Prop} (h : ∀ b, p b = true ↔ q b) (d : Bytes) : d.all p = true ↔ ∀ b ∈ d, q b := by
  rw [List.all_eq_true]
  exact ⟨fun k b hb => (h b).1 (k b hb), fun k b hb => (h b).2 (k b hb)⟩

theorem isDigit_iff (b : UInt8) : isDigit b = true ↔ c!"0" ≤ b ∧ b ≤ c!"9" := by
  unfold isDigit; simp

theorem isHex_iff (b : UInt8) : isHex b = true ↔ (c!"0" ≤ b ∧ b ≤ c!"9") ∨ (c!"a" ≤ b ∧ b ≤ c!"f") ∨ (c!"A" ≤ b ∧ b ≤ c!"F") := by
  unfold isHex
  simp only [Bool.or_eq_true, isDigit_iff, Bool.and_eq_true, decide_eq_true_eq]
  constructor
  · rintro ((h | h) | h)
    · exact .inl h
    · exact .inr (.inr h)
    · exact .inr (.inl h)
  · rintro (h | h | h)
    · exact .inl (.inl h)
    · exact .inr h
    · exact .inl (.inr h)

theorem isOctal_iff (b : UInt8) : isOctal b = true ↔ c!"0" ≤ b ∧ b ≤ c!"7" := by
  unfold isOctal; simp

theorem isInt_iff (tok : Bytes) : isInt tok = true ↔ IntToken tok := by
  unfold isInt
  rw [Bool.or_eq_true, Bool.and_eq_true, all_iff isDigit_iff, decide_eq_true_eq]
  constructor
  · rintro (⟨h1, h2⟩ | h)
    · exact .decimal _ h1 h2
    · split at h
      · rename_i a b r
        simp only [Bool.and_eq_true, Bool.or_eq_true, decide_eq_true_eq, all_iff isHex_iff, all_iff isOctal_iff] at h
        obtain ⟨rfl, ⟨⟨hx, hr⟩, hd⟩ | ⟨⟨hx, hr⟩, hd⟩⟩ := h
        · exact .hex _ _ (Or.symm hx) (by simpa using hr) hd
        · exact .octal _ _ (Or.symm hx) (by simpa using hr) hd
      · cases h
  · intro h
    cases h with
    | decimal _ h1 h2 => exact .inl ⟨h1, h2⟩
    | hex x d hx hd hh =>
      right
      simp only [Bool.and_eq_true, Bool.or_eq_true, decide_eq_true_eq, all_iff isHex_iff]
      exact ⟨trivial, .inl ⟨⟨hx.symm, hd⟩, hh⟩⟩
    | octal x d hx hd hh =>
      right
      simp only [Bool.and_eq_true, Bool.or_eq_true, decide_eq_true_eq, all_iff isOctal_iff]
      exact ⟨trivial, .inr ⟨⟨hx.symm, hd⟩, hh⟩⟩

theorem callTy_iff (n : Bytes) {t : Ty} (ht : t ≠ .unknown) : callTy n = t ↔ (n, t) ∈ constructors := by
  unfold callTy constructors
  simp only [List.mem_cons, Prod.mk.injEq, List.not_mem_nil, or_false]
  constructor
  · intro h
    repeat' split at h
    all_goals subst h
    all_goals simp_all
  · rintro (⟨rfl, rfl⟩ | ⟨rfl, rfl⟩ | ⟨rfl, rfl⟩ | ⟨rfl, rfl⟩ | ⟨rfl, rfl⟩ | ⟨rfl, rfl⟩ | ⟨rfl, rfl⟩) <;> decide

/-! ### variables -/

theorem step_of_assigns {k : TNode} {id : Nat} {t : Ty} (h : Assigns k id t) (v : Vars) : step v k = (id, t) :: v := by
  obtain ⟨c, i, p, op, lb, rhs, info, he, hg, rfl, hk, ht, ho⟩ := h
  have hk' := (kidTy_iff ht).2 hk
  unfold step update
  rw [he]
  simp only [hk', if_neg ht, hg]
  rw [if_neg]
  rintro ⟨h1, h2⟩
  exact h2 (ho h1)

theorem step_cases (v : Vars) (k : TNode) : (∃ id t, Assigns k id t ∧ step v k = (id, t) :: v) ∨ ((∀ id t, ¬ Assigns k id t) ∧ step v k = v) := by
  by_cases h : ∃ id t, Assigns k id t
  · obtain ⟨id, t, h⟩ := h
    exact .inl ⟨id, t, h, step_of_assigns h v⟩
  · right
    refine ⟨fun id t ha => h ⟨id, t, ha⟩, ?_⟩
    unfold step update
    split
    · rename_i c i p op lb rhs he
      by_cases h1 : kidTy 1 k.kids = .unknown
      · rw [if_pos h1]
      rw [if_neg h1]
      by_cases h2 : op = b!"%=" ∧ kidTy 1 k.kids ≠ .string
      · rw [if_pos h2]
      rw [if_neg h2]
      cases hg : get i.name k.scope with
      | none => rfl
      | some info =>
        refine absurd ⟨info.id, kidTy 1 k.kids, c, i, p, op, lb, rhs, info, he, hg, rfl, (kidTy_iff h1).1 rfl, h1, fun ho => ?_⟩ h
        exact Classical.byContradiction fun h3 => h2 ⟨ho, h3⟩
    · rfl

theorem assigns_fun {k : TNode} {id id' : Nat} {t t' : Ty} (h : Assigns k id t) (h' : Assigns k id' t') : id = id' ∧ t = t' := by
  have := (step_of_assigns h []).symm.trans (step_of_assigns h' [])
  simp only [List.cons.injEq, Prod.mk.injEq, and_true] at this
  exact this

theorem nil_or_snoc {α : Type} (l : List α) : l = [] ∨ ∃ a x, l = a ++ [x] := by
  rcases List.eq_nil_or_concat l with h | ⟨a, x, h⟩
  · exact .inl h
  · exact .inr ⟨a, x, by simpa using h⟩

theorem lookup_iff : ∀ (n : Nat) (pre : List TNode), pre.length = n → ∀ (id : Nat) (t : Ty), t ≠ .unknown →
    (lookup id (pre.foldl step []) = t ↔ LastAssigned pre id t) := by
  intro n
  induction n with
  | zero =>
    intro pre hl id t ht
    cases pre with
    | cons _ _ => cases hl
    | nil =>
      simp only [List.foldl_nil, lookup]
      constructor
      · intro h; exact absurd h.symm ht
      · rintro ⟨a, k, b, e, _⟩; cases a <;> cases e
  | succ n ih =>
    intro pre hl id t ht
    rcases nil_or_snoc pre with rfl | ⟨pre, k, rfl⟩
    · cases hl
    have hl' : pre.length = n := by simpa using hl
    rw [List.foldl_append]
    simp only [List.foldl_cons, List.foldl_nil]
    rcases step_cases (pre.foldl step []) k with ⟨id', t', ha, hs⟩ | ⟨hno, hs⟩
    · rw [hs]
      unfold lookup
      by_cases hid : id' = id
      · subst hid
        rw [if_pos rfl]
        constructor
        · rintro rfl; exact ⟨pre, k, [], rfl, ha, by simp⟩
        · rintro ⟨a, k', b, e, h1, h2⟩
          rcases nil_or_snoc b with rfl | ⟨b, z, rfl⟩
          · have := (List.append_inj' e rfl).2
            cases this
            exact (assigns_fun ha h1).2
          · have e' : pre ++ [k] = (a ++ k' :: b) ++ [z] := by rw [e]; simp
            have := (List.append_inj' e' rfl).2
            cases this
            exact absurd ha (h2 k (by simp) t')
      · rw [if_neg hid, ih pre hl' id t ht]
        constructor
        · rintro ⟨a, k', b, rfl, h1, h2⟩
          refine ⟨a, k', b ++ [k], by simp, h1, fun x hx t'' hx' => ?_⟩
          rcases List.mem_append.1 hx with hx | hx
          · exact h2 x hx t'' hx'
          · simp only [List.mem_singleton] at hx
            subst hx
            exact hid (assigns_fun ha hx').1
        · rintro ⟨a, k', b, e, h1, h2⟩
          rcases nil_or_snoc b with rfl | ⟨b, z, rfl⟩
          · have := (List.append_inj' e rfl).2
            cases this
            exact absurd (assigns_fun ha h1).1 hid
          · have e' : pre ++ [k] = (a ++ k' :: b) ++ [z] := by rw [e]; simp
            have := (List.append_inj' e' rfl)
            exact ⟨a, k', b, this.1, h1, fun x hx => h2 x (by simp [hx])⟩
    · rw [hs, ih pre hl' id t ht]
      constructor
      · rintro ⟨a, k', b, rfl, h1, h2⟩
        refine ⟨a, k', b ++ [k], by simp, h1, fun x hx t'' hx' => ?_⟩
        rcases List.mem_append.1 hx with hx | hx
        · exact h2 x hx t'' hx'
        · simp only [List.mem_singleton] at hx
          subst hx
          exact hno _ _ hx'
      · rintro ⟨a, k', b, e, h1, h2⟩
        rcases nil_or_snoc b with rfl | ⟨b, z, rfl⟩
        · have := (List.append_inj' e rfl).2
          cases this
          exact absurd h1 (hno _ _)
        · have e' : pre ++ [k] = (a ++ k' :: b) ++ [z] := by rw [e]; simp
          have := (List.append_inj' e' rfl)
          exact ⟨a, k', b, this.1, h1, fun x hx => h2 x (by simp [hx])⟩

theorem comparisons_iff (op : Bytes) : op ∈ [b!">", b!">=", b!"<", b!"<=", b!"==", b!"!=", b!"in", b!"not in"] ↔ op ∈ comparisons := by
  unfold comparisons
  simp only [List.mem_cons, List.not_mem_nil, or_false]
  constructor
  · rintro (h | h | h | h | h | h | h | h) <;> simp [h]
  · rintro (h | h | h | h | h | h | h | h) <;> simp [h]

theorem binary_iff (op : Bytes) (x y t : Ty) (ht : t ≠ .unknown) :
    binaryTy op x y = t ↔ (op ∈ comparisons ∧ t = .bool) ∨ (op ∈ arithmetic ∧ x = t) ∨ (op ∈ arithmetic ∧ x = .unknown ∧ y = t ∧ (op = b!"%" → t = .string)) := by
  have hd : op ∈ arithmetic → op ∉ comparisons := by
    intro h h'
    unfold arithmetic at h
    unfold comparisons at h'
    simp only [List.mem_cons, List.not_mem_nil, or_false] at h h'
    rcases h with rfl | rfl | rfl | rfl | rfl | rfl | rfl <;> revert h' <;> decide
  unfold binaryTy
  by_cases h1 : op ∈ comparisons
  · rw [if_pos ((comparisons_iff op).2 h1)]
    have h2 : op ∉ arithmetic := fun h => hd h h1
    simp [h1, h2, eq_comm]
  · rw [if_neg (fun h => h1 ((comparisons_iff op).1 h))]
    by_cases h2 : op ∈ arithmetic
    · rw [if_pos (by simpa [arithmetic] using h2)]
      by_cases hx : x = .unknown
      · subst hx
        rw [if_neg (by simp)]
        by_cases h3 : op ≠ b!"%" ∨ y = .string
        · rw [if_pos h3]
          constructor
          · rintro rfl
            refine .inr (.inr ⟨h2, rfl, rfl, fun ho => ?_⟩)
            rcases h3 with h3 | h3
            · exact absurd ho h3
            · exact h3
          · rintro (⟨h, _⟩ | ⟨_, h⟩ | ⟨_, _, h, _⟩)
            · exact absurd h h1
            · exact absurd h.symm ht
            · exact h
        · rw [if_neg h3]
          constructor
          · intro h; exact absurd h.symm ht
          · rintro (⟨h, _⟩ | ⟨_, h⟩ | ⟨_, _, h, h4⟩)
            · exact absurd h h1
            · exact absurd h.symm ht
            · subst h
              refine absurd ?_ h3
              by_cases ho : op = b!"%"
              · exact .inr (h4 ho)
              · exact .inl ho
      · rw [if_pos hx]
        constructor
        · intro h; exact .inr (.inl ⟨h2, h⟩)
        · rintro (⟨h, _⟩ | ⟨_, h⟩ | ⟨_, h, _⟩)
          · exact absurd h h1
          · exact h
          · exact absurd h hx
    · rw [if_neg (by simpa [arithmetic] using h2)]
      constructor
      · intro h; exact absurd h.symm ht
      · rintro (⟨h, _⟩ | ⟨h, _⟩ | ⟨h, _⟩)
        · exact absurd h h1
        · exact absurd h h2
        · exact absurd h h2

theorem rule_iff (pre : List TNode) (k : TNode) (t : Ty) (ht : t ≠ .unknown) :
    typeOf (pre.foldl step []) k.scope k.expr k.kids = t ↔ Rule pre k t := by
  constructor
  · intro h
    generalize he : k.expr = e at h
    unfold typeOf at h
    split at h
    · subst h; exact .string _ he
    · subst h; exact .dict _ _ _ _ _ he
    · subst h; exact .list _ _ _ _ _ he
    · split at h
      · rename_i hi; subst h; exact .int _ _ _ he ((isInt_iff _).1 hi)
      · rename_i hi; subst h; exact .float _ _ _ he (fun hh => hi ((isInt_iff _).2 hh))
    · rename_i c curly lb b cl f e
      cases curly
      · subst h; exact .listCompr _ _ _ _ _ _ he
      · subst h; exact .dictCompr _ _ _ _ _ _ he
    · exact .call _ _ _ _ _ _ _ _ he ((callTy_iff _ ht).1 h)
    · split at h
      · rename_i d ks hks
        split at h
        · rename_i hh
          obtain ⟨h1, rfl⟩ := hh
          subst h
          exact .args _ _ _ _ _ _ _ _ _ _ d he (by rw [hks]; rfl) ((kidTy_iff (by simp)).1 h1)
        · exact absurd h.symm ht
      · exact absurd h.symm ht
    · exact .paren _ _ _ _ _ _ he ((kidTy_iff ht).1 h) ht
    · rename_i i
      unfold identTy at h
      split at h
      · rename_i hh; subst h; exact .bool _ he hh
      · rename_i hn
        split at h
        · rename_i hh; subst h; exact .none _ he hh
        · rename_i hn'
          split at h
          · exact absurd h.symm ht
          · rename_i info hg
            split at h
            · rename_i hh; subst h; exact .ctx _ _ he hh.1 hg hh.2
            · rename_i hh
              exact .var _ info _ he (by simpa [not_or] using ⟨(not_or.1 hn).1, (not_or.1 hn).2, hn'⟩) hg hh ((lookup_iff _ _ rfl _ _ ht).1 h)
    · split at h
      · rename_i hh
        obtain ⟨h1, rfl⟩ := hh
        subst h
        exact .actions _ _ _ _ he ((kidTy_iff (by simp)).1 h1)
      · exact absurd h.symm ht
    · rcases (binary_iff _ _ _ _ ht).1 h with ⟨h1, rfl⟩ | ⟨h1, h2⟩ | ⟨h1, h2, h3, h4⟩
      · exact .compare _ _ _ _ _ _ he h1
      · exact .left _ _ _ _ _ _ _ he h1 ((kidTy_iff ht).1 h2) ht
      · exact .right _ _ _ _ _ _ _ he h1 (kidTy_unknown.1 h2) ((kidTy_iff ht).1 h3) ht h4
    · exact absurd h.symm ht
  · intro h
    cases h with
    | string s he => rw [he]; rfl
    | dict c s l e f he => rw [he]; rfl
    | list c s l e f he => rw [he]; rfl
    | int c s tok he hi => rw [he]; simp [typeOf, (isInt_iff tok).2 hi]
    | float c s tok he hi =>
      rw [he]
      simp only [typeOf]
      rw [if_neg (fun hh => hi ((isInt_iff tok).1 hh))]
    | dictCompr c lb b cl f e he => rw [he]; rfl
    | listCompr c lb b cl f e he => rw [he]; rfl
    | call c i s l e a b t he hi => rw [he]; exact (callTy_iff _ ht).2 hi
    | args c c' x p q s l e a b d he hd hk =>
      rw [he]
      simp only [typeOf]
      cases hkk : k.kids with
      | nil => rw [hkk] at hd; cases hd
      | cons d' ks =>
        rw [hkk] at hd
        cases hd
        simp only [(kidTy_iff (k := d) (i := 0) (t := .ctxActions) (by simp)).2 hk]
        simp
    | paren c s x e f t he hk _ => rw [he]; exact (kidTy_iff ht).2 hk
    | bool i he hi => rw [he]; simp only [typeOf, identTy]; rw [if_pos hi]
    | none i he hi => rw [he]; simp only [typeOf, identTy]; rw [hi, if_neg (by decide)]; simp
    | ctx i info he hi hg hk =>
      rw [he]
      simp only [typeOf, identTy]
      rw [if_neg (by rw [hi]; decide), if_neg (by rw [hi]; decide), hg]
      simp only
      rw [if_pos ⟨hi, hk⟩]
    | var i info t he hi hg hk hl =>
      rw [he]
      simp only [List.mem_cons, List.not_mem_nil, or_false, not_or] at hi
      simp only [typeOf, identTy]
      rw [if_neg (not_or.2 ⟨hi.1, hi.2.1⟩), if_neg hi.2.2, hg]
      simp only
      rw [if_neg hk]
      exact (lookup_iff _ _ rfl _ _ ht).2 hl
    | actions c x p q he hk =>
      rw [he]
      simp only [typeOf]
      rw [if_pos ⟨(kidTy_iff (by simp)).2 hk, trivial⟩]
    | compare c x p op lb y he ho => rw [he]; exact (binary_iff _ _ _ _ ht).2 (.inl ⟨ho, rfl⟩)
    | left c x p op lb y t he ho hk _ => rw [he]; exact (binary_iff _ _ _ _ ht).2 (.inr (.inl ⟨ho, (kidTy_iff ht).2 hk⟩))
    | right c x p op lb y t he ho hn hk _ h4 =>
      rw [he]
      exact (binary_iff _ _ _ _ ht).2 (.inr (.inr ⟨ho, kidTy_unknown.2 hn, (kidTy_iff ht).2 hk, h4⟩))

/-- **C90 (the types).** A visited node gets a type exactly by the rules. -/
theorem C90_types (c : Comments) (l : List Expr) (hf : ∀ c' l', ¬ Inside (.file c l) (.file c' l')) (pre : List TNode) (k : TNode) (suf : List TNode)
    (h : visits (.file c l) = pre ++ k :: suf) (t : Ty) (ht : t ≠ .unknown) : k.ty = t ↔ Rule pre k t := by
  obtain ⟨b, kids, _, _, hT, _⟩ := detect_file c l hf
  rw [h] at hT
  rw [timed_at hT]
  exact rule_iff pre k t ht

/-! ### the order of the visits -/

mutual
theorem post_mem : ∀ (nd c : TNode), c ∈ post nd ↔ c ∈ nd.nodes ∧ c.seen = true
  | .node e b s t kids, c => by
    rw [post, TNode.nodes, List.mem_append, postL_mem kids c]
    cases s with
    | false =>
      simp only [Bool.false_eq_true, if_false, List.not_mem_nil, or_false, List.mem_cons]
      constructor
      · rintro ⟨h1, h2⟩; exact ⟨.inr h1, h2⟩
      · rintro ⟨rfl | h1, h2⟩
        · exact absurd h2 (by simp [TNode.seen])
        · exact ⟨h1, h2⟩
    | true =>
      simp only [if_true, List.mem_cons, List.not_mem_nil, or_false]
      constructor
      · rintro (⟨h1, h2⟩ | rfl)
        · exact ⟨.inr h1, h2⟩
        · exact ⟨.inl rfl, rfl⟩
      · rintro ⟨rfl | h1, h2⟩
        · exact .inr rfl
        · exact .inl ⟨h1, h2⟩
theorem postL_mem : ∀ (l : List TNode) (c : TNode), c ∈ postL l ↔ c ∈ nodesL l ∧ c.seen = true
  | [], c => by simp [postL, nodesL]
  | k :: l, c => by
    rw [postL, nodesL, List.mem_append, List.mem_append, post_mem k c, postL_mem l c]
    constructor
    · rintro (⟨h1, h2⟩ | ⟨h1, h2⟩)
      · exact ⟨.inl h1, h2⟩
      · exact ⟨.inr h1, h2⟩
    · rintro ⟨h1 | h1, h2⟩
      · exact .inl ⟨h1, h2⟩
      · exact .inr ⟨h1, h2⟩
end

mutual
theorem kids_nodes : ∀ (nd k c : TNode), k ∈ nd.nodes → c ∈ nodesL k.kids → c ∈ nd.nodes
  | .node e b s t kids, k, c, hk, hc => by
    rw [TNode.nodes] at hk ⊢
    rcases List.mem_cons.1 hk with rfl | hk
    · exact List.mem_cons_of_mem _ hc
    · exact List.mem_cons_of_mem _ (kids_nodesL kids k c hk hc)
theorem kids_nodesL : ∀ (l : List TNode) (k c : TNode), k ∈ nodesL l → c ∈ nodesL k.kids → c ∈ nodesL l
  | [], k, c, hk, _ => by simp [nodesL] at hk
  | x :: l, k, c, hk, hc => by
    rw [nodesL] at hk ⊢
    rcases List.mem_append.1 hk with hk | hk
    · exact List.mem_append_left _ (kids_nodes x k c hk hc)
    · exact List.mem_append_right _ (kids_nodesL l k c hk hc)
end

theorem mem_nodesL {l : List TNode} {k : TNode} (h : k ∈ l) : k ∈ nodesL l := by
  induction l with
  | nil => cases h
  | cons x l ih =>
    rw [nodesL]
    rcases List.mem_cons.1 h with rfl | h
    · exact List.mem_append_left _ (mem_self k)
    · exact List.mem_append_right _ (ih h)

mutual
theorem kids_before : ∀ (nd : TNode) (pre : List TNode) (k : TNode) (suf : List TNode), post nd = pre ++ k :: suf →
    ∀ c ∈ nodesL k.kids, c.seen = true → c ∈ pre
  | .node e b s t kids, pre, k, suf, h, c, hc, hs => by
    rw [post] at h
    rcases List.append_eq_append_iff.1 h with ⟨a, h1, h2⟩ | ⟨a, h1, h2⟩
    · -- in the end
      cases s with
      | false => cases a <;> simp at h2
      | true =>
        cases a with
        | nil =>
          simp only [if_true, List.nil_append, List.cons.injEq] at h2
          obtain ⟨rfl, _⟩ := h2
          rw [h1, List.append_nil]
          exact (postL_mem kids c).2 ⟨hc, hs⟩
        | cons z a => cases a <;> simp at h2
    · cases a with
      | nil =>
        cases s with
        | false => simp at h2
        | true =>
          simp only [if_true, List.nil_append, List.cons.injEq] at h2
          obtain ⟨rfl, _⟩ := h2
          rw [← List.append_nil pre, ← h1]
          exact (postL_mem kids c).2 ⟨hc, hs⟩
      | cons z a =>
        simp only [List.cons_append, List.cons.injEq] at h2
        obtain ⟨rfl, _⟩ := h2
        exact kids_beforeL kids pre k a h1 c hc hs
theorem kids_beforeL : ∀ (l : List TNode) (pre : List TNode) (k : TNode) (suf : List TNode), postL l = pre ++ k :: suf →
    ∀ c ∈ nodesL k.kids, c.seen = true → c ∈ pre
  | [], pre, k, suf, h, c, hc, hs => by cases pre <;> simp [postL] at h
  | x :: l, pre, k, suf, h, c, hc, hs => by
    rw [postL] at h
    rcases List.append_eq_append_iff.1 h with ⟨a, h1, h2⟩ | ⟨a, h1, h2⟩
    · rw [h1]
      exact List.mem_append_right _ (kids_beforeL l a k suf h2 c hc hs)
    · cases a with
      | nil =>
        have := kids_beforeL l [] k suf (by simpa using h2.symm) c hc hs
        cases this
      | cons z a =>
        simp only [List.cons_append, List.cons.injEq] at h2
        obtain ⟨rfl, _⟩ := h2
        exact kids_before x pre k a h1 c hc hs
end

/-- **C90 (the nodes).** The tree has exactly the nodes of the file, each with its children; a node that is not visited has no type, and visited
are all but the names of arguments and what is in them. -/
theorem C90_nodes (c : Comments) (l : List Expr) (hf : ∀ c' l', ¬ Inside (.file c l) (.file c' l')) :
    (∀ y, (y = .file c l ∨ Inside (.file c l) y) ↔ ∃ k ∈ nodes (.file c l), k.expr = y) ∧ ∀ k ∈ nodes (.file c l), Local k := by
  obtain ⟨b, kids, hd, hk, hT, hL⟩ := detect_file c l hf
  refine ⟨fun y => ⟨?_, ?_⟩, hL⟩
  · have hroot : TNode.node (.file c l) b true .unknown kids ∈ nodes (.file c l) := by
      unfold nodes; rw [hd]; exact mem_nodesL (by simp)
    have kid : ∀ k ∈ nodes (.file c l), ∀ y ∈ slots k.expr, ∃ k' ∈ nodes (.file c l), k'.expr = y := by
      intro k hk y hy
      rw [← (hL k hk).2.1] at hy
      obtain ⟨k', h1, h2⟩ := List.mem_map.1 hy
      exact ⟨k', kids_nodesL _ k k' hk (mem_nodesL h1), h2⟩
    rintro (rfl | h)
    · exact ⟨_, hroot, rfl⟩
    · induction h with
      | slot y hy => exact kid _ hroot y hy
      | deeper x y _ hy ih =>
        obtain ⟨k, h1, h2⟩ := ih
        exact kid k h1 y (by rw [h2]; exact hy)
  · rintro ⟨k, hk, rfl⟩
    have main : ∀ n (nd : TNode), sizeOf nd ≤ n → (∀ k ∈ nd.nodes, Local k) → ∀ v, (nd.expr = v ∨ Inside v nd.expr) → ∀ k ∈ nd.nodes, k.expr = v ∨ Inside v k.expr := by
      intro n
      induction n with
      | zero => intro nd h; cases nd; simp at h
      | succ n ih =>
        intro nd hn hl v hv k hk
        obtain ⟨e, b, s, t, ks⟩ := nd
        have hloc : ks.map TNode.expr = slots e := (hl _ (mem_self _)).2.1
        rw [TNode.nodes] at hk
        rcases List.mem_cons.1 hk with rfl | hk
        · exact hv
        · have sub : ∀ l : List TNode, (∀ x ∈ l, x ∈ ks) → k ∈ nodesL l → ∃ x ∈ ks, k ∈ x.nodes := by
            intro l
            induction l with
            | nil => intro _ h; simp [nodesL] at h
            | cons x l ihl =>
              intro h hk
              rw [nodesL] at hk
              rcases List.mem_append.1 hk with hk | hk
              · exact ⟨x, h x (by simp), hk⟩
              · exact ihl (fun y hy => h y (by simp [hy])) hk
          obtain ⟨x, hx, hk⟩ := sub ks (fun _ h => h) hk
          have hsz : sizeOf x ≤ n := by
            have := List.sizeOf_lt_of_mem hx
            simp only [TNode.node.sizeOf_spec] at hn
            omega
          refine ih x hsz (fun k hk => hl k ?_) v ?_ k hk
          · rw [TNode.nodes]
            refine List.mem_cons_of_mem _ ?_
            have : ∀ l : List TNode, x ∈ l → k ∈ nodesL l := by
              intro l
              induction l with
              | nil => intro h; cases h
              | cons y l ihl =>
                intro h
                rw [nodesL]
                rcases List.mem_cons.1 h with rfl | h
                · exact List.mem_append_left _ hk
                · exact List.mem_append_right _ (ihl h)
            exact this ks hx
          · right
            have hxs : x.expr ∈ slots e := by
              have : x.expr ∈ ks.map TNode.expr := List.mem_map_of_mem hx
              exact hloc ▸ this
            rcases hv with rfl | hv
            · exact .slot _ hxs
            · exact .deeper _ _ hv hxs
    unfold nodes at hk hL
    rw [hd] at hk hL
    have e : ∀ x, nodesL [x] = x.nodes := by intro x; simp [nodesL]
    rw [e] at hk hL
    exact main _ _ (Nat.le_refl _) hL _ (.inl rfl) k hk

/-- **C90 (soundness).** If the assumptions of `DetectTypes` hold for the visited nodes, every type it finds is right. -/
theorem C90_sound (c : Comments) (l : List Expr) (hf : ∀ c' l', ¬ Inside (.file c l) (.file c' l')) (actual : List Block → Expr → Ty) (var : Nat → Ty)
    (h : ∀ k ∈ nodes (.file c l), k.seen = true → Fact actual var k.scope k.expr) :
    ∀ k ∈ nodes (.file c l), k.ty ≠ .unknown → k.ty = actual k.scope k.expr := by
  obtain ⟨b, kids, hd, hk, hT, hL⟩ := detect_file c l hf
  have main : ∀ n pre k suf, pre.length = n → visits (.file c l) = pre ++ k :: suf → k.ty ≠ .unknown → k.ty = actual k.scope k.expr := by
    intro n
    induction n using Nat.strongRecOn with
    | _ n ih =>
      intro pre k suf hn hv hty
      -- what was visited before
      have before : ∀ z ∈ pre, z.ty ≠ .unknown → z.ty = actual z.scope z.expr := by
        intro z hz
        obtain ⟨a, b', rfl⟩ := List.append_of_mem hz
        exact ih a.length (by rw [← hn]; simp) a z (b' ++ k :: suf) rfl (by rw [hv]; simp)
      have inV : ∀ z, z ∈ visits (.file c l) → z ∈ nodes (.file c l) ∧ z.seen = true := fun z hz => (postL_mem _ z).1 hz
      have hkn := inV k (by rw [hv]; simp)
      -- the children of a visited node
      have kid : ∀ pre' z suf', visits (.file c l) = pre' ++ z :: suf' → (∀ y ∈ pre', y ∈ pre) → ∀ d ∈ nodesL z.kids, d.ty ≠ .unknown →
          d.ty = actual d.scope d.expr := by
        intro pre' z suf' hz hsub d hd' hdty
        have hdn : d ∈ nodes (.file c l) := kids_nodesL _ z d (inV z (by rw [hz]; simp)).1 hd'
        have hds : d.seen = true := by
          cases hs : d.seen with
          | true => rfl
          | false => exact absurd ((hL d hdn).1 hs) hdty
        exact before d (hsub d (kids_beforeL _ pre' z suf' hz d hd' hds)) hdty
      -- a child with a type
      have child : ∀ pre' z suf', visits (.file c l) = pre' ++ z :: suf' → (∀ y ∈ pre', y ∈ pre) → ¬ Scoped z.expr → ∀ i t e, KidTy z i t → t ≠ .unknown →
          (slots z.expr)[i]? = some e → actual z.scope e = t := by
        intro pre' z suf' hz hsub hsc i t e ⟨d, h1, h2⟩ ht he
        have hzn := (inV z (by rw [hz]; simp)).1
        have hdm : d ∈ z.kids := List.mem_of_getElem? h1
        have h3 := kid pre' z suf' hz hsub d (mem_nodesL hdm) (by rw [h2]; exact ht)
        rw [← (hL z hzn).2.1, List.getElem?_map, h1] at he
        simp only [Option.map_some, Option.some.injEq] at he
        rw [(hL z hzn).2.2.1 hsc d hdm, he] at h3
        rw [← h3, h2]
      have fk := h k hkn.1 hkn.2
      have hr := (C90_types c l hf pre k suf hv k.ty hty).1 rfl
      generalize htt : k.ty = t at hr hty
      clear htt
      cases hr with
      | string s he => rw [he] at fk ⊢; exact fk.symm
      | dict c s l e f he => rw [he] at fk ⊢; exact fk.symm
      | list c s l e f he => rw [he] at fk ⊢; exact fk.symm
      | int c s tok he hi => rw [he] at fk ⊢; exact (fk.1 hi).symm
      | float c s tok he hi => rw [he] at fk ⊢; exact (fk.2 hi).symm
      | dictCompr c lb b cl f e he => rw [he] at fk ⊢; exact fk.symm
      | listCompr c lb b cl f e he => rw [he] at fk ⊢; exact fk.symm
      | call c i s l e a b t he hi => rw [he] at fk ⊢; exact (fk.1 i _ rfl hi).symm
      | args c c' x p q s l e a b d he hd hkd =>
        have hdm : d ∈ k.kids := List.mem_of_getElem? hd
        have hdn := kids_nodesL _ k d hkn.1 (mem_nodesL hdm)
        have hde : d.expr = .dot c' x p q b!"args" := by
          have := (hL k hkn.1).2.1
          rw [he] at this
          have h0 := congrArg (·[0]?) this
          simp only [List.getElem?_map, hd, slots] at h0
          simpa using h0
        obtain ⟨g, g1, g2⟩ := hkd
        have hgm : g ∈ d.kids := List.mem_of_getElem? g1
        have hsc : d.scope = k.scope := (hL k hkn.1).2.2.1 (by rw [he]; simp [Scoped]) d hdm
        have hsg : g.scope = k.scope := ((hL d hdn).2.2.1 (by rw [hde]; simp [Scoped]) g hgm).trans hsc
        have hge : g.expr = x := by
          have := (hL d hdn).2.1
          rw [hde] at this
          have h0 := congrArg (·[0]?) this
          simp only [List.getElem?_map, g1, slots] at h0
          simpa using h0
        have := kid pre k suf hv (fun _ h => h) g (kids_nodesL _ d g (mem_nodesL hdm) (mem_nodesL hgm)) (by rw [g2]; simp)
        rw [g2, hsg, hge] at this
        rw [he] at fk ⊢
        exact (fk.2 c' x p q rfl this.symm).symm
      | paren c s x e f t he hkt _ =>
        have := child pre k suf hv (fun _ h => h) (by rw [he]; simp [Scoped]) 0 _ x hkt hty (by rw [he]; rfl)
        rw [he] at fk ⊢
        exact (fk.trans this).symm
      | bool i he hi => rw [he] at fk ⊢; exact (fk.1 hi).symm
      | none i he hi => rw [he] at fk ⊢; exact (fk.2.1 hi).symm
      | ctx i info he hi hg hk =>
        rw [he] at fk ⊢
        have := fk.2.2 info (by rw [hi]; decide) hg
        rw [if_pos ⟨hi, hk⟩] at this
        exact this.symm
      | var i info t he hi hg hk hl =>
        rw [he] at fk ⊢
        have := fk.2.2 info hi hg
        rw [if_neg hk] at this
        rw [this]
        obtain ⟨a, z, b', hpre, ⟨c', i', p', op, lb, rhs, info', he', hg', hid, hkt, htu, ho⟩, _⟩ := hl
        have hz : visits (.file c l) = a ++ z :: (b' ++ k :: suf) := by rw [hv, hpre]; simp
        have hzn := inV z (by rw [hz]; simp)
        have h2 := child a z _ hz (fun y hy => by rw [hpre]; simp [hy]) (by rw [he']; simp [Scoped]) 1 _ rhs hkt htu (by rw [he']; rfl)
        have fz := h z hzn.1 hzn.2
        rw [he'] at fz
        obtain ⟨f1, f2⟩ := fz i' info' rfl hg'
        rw [hid] at f1 f2
        by_cases hop : op = b!"%="
        · have hs := ho hop
          rw [f2 hop (by rw [h2]; exact hs), hs]
        · rw [f1 hop, h2]
      | actions c x p q he hkt =>
        have := child pre k suf hv (fun _ h => h) (by rw [he]; simp [Scoped]) 0 _ x hkt (by simp) (by rw [he]; rfl)
        rw [he] at fk ⊢
        exact (fk rfl this).symm
      | compare c x p op lb y he ho => rw [he] at fk ⊢; exact (fk.1 ho).symm
      | left c x p op lb y t he ho hkt _ =>
        have := child pre k suf hv (fun _ h => h) (by rw [he]; simp [Scoped]) 0 _ x hkt hty (by rw [he]; rfl)
        rw [he] at fk ⊢
        exact ((fk.2.1 ho).trans this).symm
      | right c x p op lb y t he ho hn hkt _ h4 =>
        have := child pre k suf hv (fun _ h => h) (by rw [he]; simp [Scoped]) 1 _ y hkt hty (by rw [he]; rfl)
        rw [he] at fk ⊢
        by_cases hop : op = b!"%"
        · have hs := h4 hop
          rw [fk.2.2.2 hop (by rw [this]; exact hs), hs]
        · exact ((fk.2.2.1 ho hop).trans this).symm
  intro k hk' hty
  have hs : k.seen = true := by
    cases hs : k.seen with
    | true => rfl
    | false => exact absurd ((hL k hk').1 hs) hty
  have hv : k ∈ visits (.file c l) := (postL_mem _ k).2 ⟨hk', hs⟩
  obtain ⟨pre, suf, e⟩ := List.append_of_mem hv
  exact main _ pre k suf rfl e hty

/-! ### examples -/

/-- an identifier -/
def id_ (n : Bytes) : Expr := .ident { name := n }

/-- a number -/
def num (n : Bytes) : Expr := .literal {} {} n

/-- a binary expression -/
def bin (x : Expr) (op : Bytes) (y : Expr) : Expr := .binary {} x {} op false y

/-- an assignment -/
def asg (x : Expr) (op : Bytes) (y : Expr) : Expr := .assign {} x {} op false y

/-- the types of the nodes in the order of `Walk`, without those that have none -/
def found (l : List Expr) : List Ty := (nodes (.file {} l)).filterMap fun k => if k.ty = .unknown then none else some k.ty

/-- `x = 3`, `y = "a" % x`, `f(x = y)`: the name of the argument has no type -/
theorem C90_example : found [asg (id_ b!"x") b!"=" (num b!"3"), asg (id_ b!"y") b!"=" (bin (.string { value := b!"a" }) b!"%" (id_ b!"x")),
    .call {} (id_ b!"f") {} [asg (id_ b!"x") b!"=" (id_ b!"y")] {} false false, id_ b!"x"] = [.int, .string, .string, .int, .string, .int] := by
  decide +kernel

/-- `def f(ctx): ctx.actions.args()` -/
theorem C90_example_ctx : found [.defS {} {} b!"f" [id_ b!"ctx"] [.call {} (.dot {} (.dot {} (id_ b!"ctx") {} {} b!"actions") {} {} b!"args") {} [] {} false false]
    {} false false .nil] = [.ctx, .ctxActionsArgs, .ctxActions, .ctx] := by
  decide +kernel

/-- **C90**: the assumptions matter. `(1 + 0.5) / 2` is taken for an integer; so is a parameter with an integer as its default value. -/
theorem C90_witness : found [bin (.paren {} {} (bin (num b!"1") b!"+" (num b!"0.5")) {} false) b!"/" (num b!"2")] = [.int, .int, .int, .int, .float, .int] ∧
    found [.defS {} {} b!"f" [asg (id_ b!"x") b!"=" (num b!"1")] [.returnS {} {} (id_ b!"x")] {} false false .nil] = [.int, .int] := by
  decide +kernel

/-- the hypothesis of the theorems: there is no file in a file -/
example : ∀ c' l', ¬ Inside (.file {} [asg (id_ b!"x") b!"=" (num b!"3")]) (.file c' l') := by
  intro c' l' h
  have : ∀ z, Inside (.file {} [asg (id_ b!"x") b!"=" (num b!"3")]) z → z = asg (id_ b!"x") b!"=" (num b!"3") ∨ z = id_ b!"x" ∨ z = num b!"3" := by
    intro z hz
    induction hz with
    | slot z hz => left; simpa [slots] using hz
    | deeper x y _ hy ih =>
      rcases ih with rfl | rfl | rfl
      · right; simpa [slots, asg] using hy
      · simp [slots, id_] at hy
      · simp [slots, num] at hy
  rcases this _ h with h | h | h <;> cases h

end Verif.Props.Types
