import Verif.Props.Bzlenv
/-
Every node of a tree is visited by a traversal with an environment, and the environment's stack is then the list of its ancestors.
-/
namespace Verif.Props.Bzlenv
open Verif Verif.Syntax Verif.Walk Verif.Bzlenv

theorem stack_declare (env : Env) (n k d) : (declare env n k d).stack = env.stack := by
  unfold declare; split <;> rfl

theorem stack_declareAll (k d) : ∀ (l : List Bytes) (env : Env), (declareAll env k d l).stack = env.stack
  | [], _ => rfl
  | n :: l, env => by rw [declareAll, stack_declareAll, stack_declare]

theorem stack_declareTo : ∀ (l : List IdentN) (env : Env), (declareTo env l).stack = env.stack
  | [], _ => rfl
  | n :: l, env => by rw [declareTo, stack_declareTo, stack_declare]

theorem stack_declareGlobals : ∀ (l : List Expr) (env : Env), (declareGlobals env l).stack = env.stack := by
  intro l
  induction l with
  | nil => intro env; rfl
  | cons x l ih =>
    intro env
    unfold declareGlobals
    split
    · rename_i h; cases h
    · rename_i h; injection h with _ h; subst h; rw [ih, stack_declareTo]
    · rename_i h; injection h with _ h; subst h; rw [ih, stack_declareAll]
    · rename_i h; injection h with _ h; subst h; rw [ih, stack_declare]
    · rename_i h; injection h with _ h; subst h; rw [ih]

theorem stack_declareParams : ∀ (l : List Expr) (env : Env), (declareParams env l).stack = env.stack
  | [], _ => rfl
  | n :: l, env => by rw [declareParams, stack_declareParams, stack_declare]

mutual
theorem stack_declareLocal : ∀ (e : Expr) (env : Env), (declareLocal env e).stack = env.stack
  | .assign .., env => by rw [declareLocal, stack_declareAll]
  | .ifS _ _ _ t _ f, env => by rw [declareLocal, stack_declareLocals, stack_declareLocals]
  | .forS c p v x b, env => by rw [declareLocal, stack_declareLocals, stack_declareAll]
  | .nil, env | .commentBlock .., env | .ident .., env | .typedIdent .., env | .branch .., env | .literal .., env | .string .., env | .call .., env
  | .dot .., env | .compr .., env | .forClause .., env | .ifClause .., env | .keyValue .., env | .dict .., env | .list .., env | .set .., env
  | .tuple .., env | .unary .., env | .binary .., env | .paren .., env | .slice .., env | .index .., env | .lambda .., env | .cond .., env
  | .load .., env | .defS .., env | .returnS .., env | .file .., env => by simp [declareLocal]
theorem stack_declareLocals : ∀ (l : List Expr) (env : Env), (declareLocals env l).stack = env.stack
  | [], env => by rw [declareLocals]
  | e :: l, env => by rw [declareLocals, stack_declareLocals, stack_declareLocal]
end

theorem stack_declareClauses (node : Expr) : ∀ (l : List Expr) (env : Env), (declareClauses env node l).stack = env.stack := by
  intro l
  induction l with
  | nil => intro env; rfl
  | cons x l ih =>
    intro env
    unfold declareClauses
    split
    · rename_i h; cases h
    · rename_i h; injection h with _ h; subst h; rw [ih, stack_declareAll]
    · rename_i h; injection h with _ h; subst h; rw [ih]

/-- a node calls the callback on its slots, with itself on the stack, and removes itself afterwards -/
theorem walkOnce_form {σ : Type} (fct : σ → Env → Expr → σ × Env) (node : Expr) (s : σ) (env : Env) :
    ∃ env1 : Env, env1.stack = env.stack ++ [node] ∧ (walkOnceEnv fct node s env).1 = (callSlots fct s env1 (slots node)).1 ∧
      (walkOnceEnv fct node s env).2.stack = (callSlots fct s env1 (slots node)).2.stack.dropLast := by
  unfold walkOnceEnv
  dsimp only
  split
  · exact ⟨_, stack_declareGlobals _ _, rfl, rfl⟩
  · refine ⟨_, ?_, rfl, rfl⟩
    rw [stack_declareLocals, stack_declareParams]
    rfl
  · refine ⟨_, ?_, rfl, rfl⟩
    rw [stack_declareClauses]
    rfl
  · exact ⟨_, rfl, rfl, rfl⟩

theorem callSlots_stack {σ : Type} (fct : σ → Env → Expr → σ × Env) (h : ∀ s env x, (fct s env x).2.stack = env.stack) :
    ∀ (l : List Expr) (s : σ) (env : Env), (callSlots fct s env l).2.stack = env.stack
  | [], _, _ => rfl
  | x :: l, s, env => by rw [callSlots, callSlots_stack fct h l, h]

theorem walkEnv_stack : ∀ (n : Nat) (log : List (Expr × Env)) (env : Env) (x : Expr), (walkEnv n log env x).2.stack = env.stack
  | 0, _, _, _ => rfl
  | n + 1, log, env, x => by
    rw [walkEnv]
    split
    · rfl
    · obtain ⟨env1, h1, _, h3⟩ := walkOnce_form (walkEnv n) x (log ++ [(x, env)]) env
      rw [h3, callSlots_stack _ (walkEnv_stack n), h1]
      simp

theorem callSlots_mono (f : List (Expr × Env) → Env → Expr → List (Expr × Env) × Env) (h : ∀ log env x, ∀ y ∈ log, y ∈ (f log env x).1) :
    ∀ (l : List Expr) (log : List (Expr × Env)) (env : Env), ∀ y ∈ log, y ∈ (callSlots f log env l).1
  | [], _, _, _, hy => hy
  | x :: l, log, env, y, hy => by rw [callSlots]; exact callSlots_mono f h l _ _ y (h log env x y hy)

theorem walkEnv_mono : ∀ (n : Nat) (log : List (Expr × Env)) (env : Env) (x : Expr), ∀ y ∈ log, y ∈ (walkEnv n log env x).1
  | 0, _, _, _, _, hy => hy
  | n + 1, log, env, x, y, hy => by
    rw [walkEnv]
    split
    · exact hy
    · obtain ⟨env1, _, h2, _⟩ := walkOnce_form (walkEnv n) x (log ++ [(x, env)]) env
      rw [h2]
      exact callSlots_mono _ (walkEnv_mono n) _ _ _ y (by simp [hy])

theorem ancestors_cons {root x : Expr} (hx : x ∈ slots root) : ∀ {stk y}, Ancestors x stk y → Ancestors root (root :: stk) y := by
  intro stk y h
  induction h with
  | root => exact .child [] root x .root hx
  | child stk v z _ hz ih => exact .child (root :: stk) v z ih hz

theorem ancestors_top {root : Expr} : ∀ {stk y}, Ancestors root stk y → (stk = [] ∧ y = root) ∨ ∃ x stk', x ∈ slots root ∧ stk = root :: stk' ∧ Ancestors x stk' y := by
  intro stk y h
  induction h with
  | root => exact .inl ⟨rfl, rfl⟩
  | child stk v z _ hz ih =>
    right
    rcases ih with ⟨rfl, rfl⟩ | ⟨x, stk', hx, rfl, h⟩
    · exact ⟨z, [], hz, rfl, .root⟩
    · exact ⟨x, stk' ++ [v], hx, rfl, .child _ _ _ h hz⟩

theorem callSlots_visits (f : List (Expr × Env) → Env → Expr → List (Expr × Env) × Env) (hm : ∀ log env x, ∀ y ∈ log, y ∈ (f log env x).1)
    (hs : ∀ log env x, (f log env x).2.stack = env.stack) (x : Expr) : ∀ (l : List Expr) (log : List (Expr × Env)) (env : Env), x ∈ l →
    ∃ log' env', env'.stack = env.stack ∧ ∀ y ∈ (f log' env' x).1, y ∈ (callSlots f log env l).1 := by
  intro l
  induction l with
  | nil => intro _ _ h; cases h
  | cons z l ih =>
    intro log env hx
    rw [callSlots]
    rcases List.mem_cons.1 hx with rfl | hx
    · exact ⟨log, env, rfl, callSlots_mono f hm l _ _⟩
    · obtain ⟨log', env', h1, h2⟩ := ih (f log env z).1 (f log env z).2 hx
      exact ⟨log', env', h1.trans (hs ..), h2⟩

theorem walkEnv_visits : ∀ (n : Nat) (x : Expr), size x ≤ n → ∀ (log : List (Expr × Env)) (env : Env) (stk : List Expr) (y : Expr), Ancestors x stk y → y.isNil = false →
    ∃ env', (y, env') ∈ (walkEnv n log env x).1 ∧ env'.stack = env.stack ++ stk := by
  intro n
  induction n with
  | zero => intro x hx; have := size_pos x; omega
  | succ n ih =>
    intro x hx log env stk y hy hnil
    rw [walkEnv]
    have hxn : x.isNil = false := by
      rcases ancestors_top hy with ⟨_, rfl⟩ | ⟨z, _, hz, _⟩
      · exact hnil
      · cases x <;> first | rfl | cases hz
    rw [if_neg (by simp [hxn])]
    obtain ⟨env1, h1, h2, _⟩ := walkOnce_form (walkEnv n) x (log ++ [(x, env)]) env
    rw [h2]
    rcases ancestors_top hy with ⟨rfl, rfl⟩ | ⟨z, stk', hz, rfl, ha⟩
    · exact ⟨env, callSlots_mono _ (walkEnv_mono n) _ _ _ _ (by simp), by simp⟩
    · obtain ⟨log', env', h3, h4⟩ := callSlots_visits (walkEnv n) (walkEnv_mono n) (walkEnv_stack n) z (slots x) (log ++ [(x, env)]) env1 hz
      have := size_slot_lt hz
      obtain ⟨env2, h5, h6⟩ := ih z (by omega) log' env' stk' y ha hnil
      refine ⟨env2, h4 _ h5, ?_⟩
      rw [h6, h3, h1]
      simp

/-- **C56** Every node of the tree is visited, with its ancestors on the stack. -/
theorem C56_complete (root x : Expr) (stk : List Expr) (h : Ancestors root stk x) (hx : x.isNil = false) :
    ∃ env, (x, env) ∈ walkAll root ∧ env.stack = stk := by
  obtain ⟨env, h1, h2⟩ := walkEnv_visits (size root) root (Nat.le_refl _) [] {} stk x h hx
  exact ⟨env, h1, by simpa using h2⟩

end Verif.Props.Bzlenv
