import Verif.Model.Walk
/-
Model of /repo/bzlenv/bzlenv.go: the static environment of names that the warnings keep while they walk over a file.

A block (a Go map from names to NameInfo) is a list of declarations, the latest first; looking a name up takes the latest.
-/
namespace Verif.Bzlenv
open Verif Verif.Syntax Verif.Walk

/-- bzlenv/bzlenv.go:25-36 `ValueKind` -/
inductive ValueKind where
  | builtin | imported | global | function | parameter | local_
deriving DecidableEq, Repr

/-- bzlenv/bzlenv.go:57-63 `NameInfo` -/
structure NameInfo where
  id : Nat
  name : Bytes
  kind : ValueKind
  definition : Expr

/-- bzlenv/bzlenv.go:64 `block`, the latest declaration of a name first -/
abbrev Block := List NameInfo

/-- bzlenv/bzlenv.go:67-72 `Environment`. `blocks` is innermost first (Go appends at the end); `stack` is outermost first. -/
structure Env where
  blocks : List Block := [[]]
  function : Option Expr := none
  nextID : Nat := 0
  stack : List Expr := []

/-- a map lookup `block[name]` (bzlenv.go:106) -/
def lookupB (name : Bytes) : Block → Option NameInfo
  | [] => none
  | i :: l => if i.name = name then some i else lookupB name l

/-- bzlenv/bzlenv.go:104-111 `Environment.Get` -/
def get (name : Bytes) : List Block → Option NameInfo
  | [] => none
  | b :: l => match lookupB name b with
    | some i => some i
    | none => get name l

/-- bzlenv/bzlenv.go:95-101 and 113-117 `declare`, in the current block. (Go panics without a block; then nothing is declared here.) -/
def declare (env : Env) (name : Bytes) (kind : ValueKind) (node : Expr) : Env :=
  match env.blocks with
  | [] => env
  | b :: l => { env with blocks := (⟨env.nextID, name, kind, node⟩ :: b) :: l, nextID := env.nextID + 1 }

mutual
/-- bzlenv/bzlenv.go:142-157 `CollectLValues`: the names -/
def lvalues : Expr → List Bytes
  | .ident n => [n.name]
  | .tuple _ _ _ l .. => lvaluesL l
  | .list _ _ l .. => lvaluesL l
  | _ => []
/-- the loops in bzlenv/bzlenv.go:148-154 -/
def lvaluesL : List Expr → List Bytes
  | [] => []
  | x :: l => lvalues x ++ lvaluesL l
end

/-- `for _, id := range CollectLValues(lhs) { env.declare(id.Name, kind, node) }` (bzlenv.go:131-133, 174-176, 181-183, 209-211) -/
def declareAll (env : Env) (kind : ValueKind) (node : Expr) : List Bytes → Env
  | [] => env
  | n :: l => declareAll (declare env n kind node) kind node l

/-- the kind of an assigned name (bzlenv.go:127-130 and 170-173) -/
def assignKind (env : Env) : ValueKind := if env.function.isNone then .global else .local_

/-- the names a load declares (bzlenv.go:122-125): each with its own identifier as definition -/
def declareTo (env : Env) : List IdentN → Env
  | [] => env
  | i :: l => declareTo (declare env i.name .imported (.ident i)) l

/-- bzlenv/bzlenv.go:119-138 `declareGlobals` -/
def declareGlobals (env : Env) : List Expr → Env
  | [] => env
  | .load _ _ _ _ to_ _ _ :: l => declareGlobals (declareTo env to_) l
  | .assign c lhs p op lb rhs :: l => declareGlobals (declareAll env (assignKind env) (.assign c lhs p op lb rhs) (lvalues lhs)) l
  | .defS c p n ps b cp fc fm t :: l => declareGlobals (declare env n .function (.defS c p n ps b cp fc fm t)) l
  | _ :: l => declareGlobals env l

/-- build/utils.go:20-48 `GetParamName`: the name of a parameter, empty for a bare `*` -/
def paramName : Expr → Bytes
  | .ident n => n.name
  | .typedIdent _ i _ => i.name
  | .assign _ lhs .. => paramName lhs
  | .unary _ _ _ x => paramName x
  | _ => []

/-- bzlenv/bzlenv.go:159-164 `declareParams` -/
def declareParams (env : Env) : List Expr → Env
  | [] => env
  | p :: l => declareParams (declare env (paramName p) .parameter p) l

mutual
/-- bzlenv/bzlenv.go:166-187 `declareLocalVariables`: one statement -/
def declareLocal (env : Env) : Expr → Env
  | .assign c lhs p op lb rhs => declareAll env (assignKind env) (.assign c lhs p op lb rhs) (lvalues lhs)
  | .ifS _ _ _ t _ f => declareLocals (declareLocals env t) f
  | .forS c p v x b => declareLocals (declareAll env .local_ (.forS c p v x b) (lvalues v)) b
  | _ => env
/-- bzlenv/bzlenv.go:166-187 `declareLocalVariables` -/
def declareLocals (env : Env) : List Expr → Env
  | [] => env
  | s :: l => declareLocals (declareLocal env s) l
end

/-- the names of a comprehension (bzlenv.go:206-213) -/
def declareClauses (env : Env) (node : Expr) : List Expr → Env
  | [] => env
  | .forClause _ _ v _ _ :: l => declareClauses (declareAll env .local_ node (lvalues v)) node l
  | _ :: l => declareClauses env node l

/-- `build.WalkOnce(node, func(e) { fct(e, env) })` (bzlenv.go:195, 201, 214, 217) -/
def callSlots {σ : Type} (fct : σ → Env → Expr → σ × Env) (s : σ) (env : Env) : List Expr → σ × Env
  | [] => (s, env)
  | x :: l => callSlots fct (fct s env x).1 (fct s env x).2 l

/-- `env.exitBlock()` (bzlenv.go:84-89) -/
def exitBlock (env : Env) : Env := { env with blocks := env.blocks.tail }

/-- `env.enterBlock()` (bzlenv.go:80-82) -/
def enterBlock (env : Env) : Env := { env with blocks := [] :: env.blocks }

/-- `env.Stack = env.Stack[:len(env.Stack)-1]` (bzlenv.go:219) -/
def pop (env : Env) : Env := { env with stack := env.stack.dropLast }

/-- bzlenv/bzlenv.go:190-220 `WalkOnceWithEnvironment`. The callback's own variables are the state `σ`; it is not called on absent (nil) children in
Go, here it is and must ignore them. -/
def walkOnceEnv {σ : Type} (fct : σ → Env → Expr → σ × Env) (node : Expr) (s : σ) (env : Env) : σ × Env :=
  let env := { env with stack := env.stack ++ [node] }
  match node with
  | .file c l =>
    let r := callSlots fct s (declareGlobals env l) (slots (.file c l))
    (r.1, pop r.2)
  | .defS c p n ps b cp fc fm t =>
    let env := enterBlock env
    let env := { env with function := some (.defS c p n ps b cp fc fm t) }
    let env := declareLocals (declareParams env ps) b
    let r := callSlots fct s env (slots (.defS c p n ps b cp fc fm t))
    (r.1, pop (exitBlock { r.2 with function := none }))
  | .compr c cu lb b cl fm e =>
    let env := declareClauses (enterBlock env) (.compr c cu lb b cl fm e) cl
    let r := callSlots fct s env (slots (.compr c cu lb b cl fm e))
    (r.1, pop (exitBlock r.2))
  | node =>
    let r := callSlots fct s env (slots node)
    (r.1, pop r.2)

/-- The way the warnings use it (e.g. warn/warn_bazel_api.go, warn/types.go): the callback looks at the node and its environment and calls
`WalkOnceWithEnvironment` on the node with itself as the callback. Gives the nodes with their environments in the order of the visits; `n` is the recursion
budget. -/
def walkEnv : Nat → List (Expr × Env) → Env → Expr → List (Expr × Env) × Env
  | 0, log, env, _ => (log, env)
  | n + 1, log, env, x =>
    if x.isNil then (log, env) else walkOnceEnv (walkEnv n) x (log ++ [(x, env)]) env

/-- A traversal of a whole tree from a new environment (bzlenv.go:75-79 `NewEnvironment`). -/
def walkAll (v : Expr) : List (Expr × Env) := (walkEnv (size v) [] {} v).1

end Verif.Bzlenv
