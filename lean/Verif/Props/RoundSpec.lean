import Verif.Model.Print
import Verif.Props.Quote
import Verif.Props.Lexer
/-
Specification for C49 and C50: which trees can be printed and read back (`Ok`, `OkStmt`), when two trees are the same up to layout (`Same`).
-/
namespace Verif.Round
open Verif Verif.Syntax Verif.Lexer Verif.Print

/-! ## Texts -/

/-- the reserved words -/
def keywords : List Bytes :=
  [b!"and", b!"for", b!"if", b!"else", b!"elif", b!"in", b!"is", b!"lambda", b!"load", b!"not", b!"or", b!"def", b!"return",
   b!"pass", b!"break", b!"continue"]

/-- an identifier: letters, digits, underscores and non-ASCII characters, not starting with a digit, not a reserved word -/
def Name (t : Bytes) : Prop :=
  ∃ c s, t = c :: s ∧ Props.Lexer.wordByte c ∧ ¬ (48 ≤ c ∧ c ≤ 57) ∧ (∀ b ∈ s, Props.Lexer.wordByte b) ∧ t ∉ keywords

/-- what may follow in an integer literal: letters and digits, and a sign directly after the letter `e` -/
inductive Digits : UInt8 → Bytes → Prop
  | nil (l) : Digits l []
  | word (l c s) : Props.Lexer.wordByte c → Digits c s → Digits l (c :: s)
  | sign (l c s) : (c = 43 ∨ c = 45) → (l = 101 ∨ l = 69) → Digits c s → Digits l (c :: s)

/-- the text of an integer token -/
def IntText (t : Bytes) : Prop := ∃ c s, t = c :: s ∧ (48 ≤ c ∧ c ≤ 57) ∧ Digits c s

/-- the text of a number that is not a single integer token -/
inductive Float : Bytes → Prop
  | both (a b) : IntText a → IntText b → Float (a ++ b!"." ++ b)
  | left (a) : IntText a → Float (a ++ b!".")
  | right (b) : IntText b → Float (b!"." ++ b)

/-! ## Trees that can be printed -/

/-- `a if b else c` -/
def isCond : Expr → Bool
  | .cond .. => true
  | _ => false

def isLambda : Expr → Bool
  | .lambda .. => true
  | _ => false

/-- `is` and `is not`: the printer does not know their precedence -/
def isOps : List Bytes := [b!"is", b!"is not"]

/-- the binary operators with a precedence -/
def binOps : List Bytes :=
  [b!"or", b!"and", b!"<", b!">", b!"==", b!"<=", b!"!=", b!">=", b!"in", b!"not in", b!"|", b!"^", b!"&", b!"<<", b!">>", b!"+", b!"-",
   b!"*", b!"%", b!"/", b!"//"]

/-- the unary operators -/
def unOps : List Bytes := [b!"not", b!"-", b!"+", b!"~"]

/-- the operators of assignments that become `AssignExpr` nodes -/
def assignOps : List Bytes := [b!"=", b!"+=", b!"-=", b!"*=", b!"/=", b!"//=", b!"%=", b!"|="]

/-- the augmented assignments that become `BinaryExpr` nodes -/
def augOps : List Bytes := [b!"&=", b!"^=", b!"<<=", b!">>="]

/-- printed without parentheres it ends with a `lambda`, which would swallow an `if` or `is` that follows -/
def openEnd : Expr → Bool
  | .lambda .. => true
  | .binary _ _ _ op _ y => isOps.contains op && isLambda y
  | _ => false

def isInt : Expr → Bool
  | .literal _ _ t => !t.contains 46
  | _ => false

def isNot : Expr → Bool
  | .unary _ _ op _ => op == b!"not"
  | _ => false

/-- a binary operator with a precedence -/
def isBin : Expr → Bool
  | .binary _ _ _ op _ _ => binOps.contains op
  | _ => false

/-- expressions that bind tighter than any operator -/
def isPrimary : Expr → Bool
  | .ident _ | .literal .. | .string _ | .dot .. | .load .. | .call .. | .index .. | .slice .. | .list .. | .compr .. | .dict .. | .set .. | .paren .. => true
  | .tuple _ nb .. => !nb
  | _ => false

/-- a clause of a comprehension ends with a `lambda` without parentheses -/
def openClause : Expr → Bool
  | .forClause _ _ _ _ x => openEnd x
  | .ifClause _ _ x => openEnd x
  | _ => false

def isIfClause : Expr → Bool
  | .ifClause .. => true
  | _ => false

/-- a comprehension starts with a `for` clause -/
def forFirst : List Expr → Bool
  | .forClause .. :: _ => true
  | _ => false

/-- no clause that ends with a `lambda` comes directly before an `if` -/
def clausesApart : List Expr → Bool
  | x :: y :: l => !(openClause x && isIfClause y) && clausesApart (y :: l)
  | _ => true

mutual
/-- Expressions that can stand wherever a single expression is expected. Comments are excluded here. The exceptions the printer does not protect by
parentheses: a conditional as operand or base of a suffix, a `lambda` without parentheses before `is`, `is` before `not`, an integer before a dot. -/
inductive Ok : Expr → Prop
  | ident (n) : n.comments = {} → Name n.name → Ok (.ident n)
  | int (p t) : IntText t → Ok (.literal {} p t)
  | float (p t) : Float t → Ok (.literal {} p t)
  | string (n) : n.comments = {} → (n.token = [] ∨ Props.Quote.LexedToken n.token) → Ok (.string n)
  | dot (x dp np name) : Ok x → isCond x = false → isInt x = false → Name name → Ok (.dot {} x dp np name)
  | call (x ls l e fc fm) : e.comments = {} → Ok x → isCond x = false → (∀ a ∈ l, OkArg a) → Ok (.call {} x ls l e fc fm)
  | index (x p y e) : Ok x → isCond x = false → OkExpr y → Ok (.index {} x p y e)
  | slice (x p fr c1 to c2 st e) : Ok x → isCond x = false → (fr.isNil = false → OkExpr fr) → (to.isNil = false → Ok to) → (st.isNil = false → Ok st) →
      (c2.byte = 0 → st.isNil) → Ok (.slice {} x p fr c1 to c2 st e)
  | list (s l e fm) : e.comments = {} → (∀ a ∈ l, Ok a) → Ok (.list {} s l e fm)
  | set (s l e fm) : e.comments = {} → l ≠ [] → (∀ a ∈ l, Ok a) → Ok (.set {} s l e fm)
  | tuple (s l e fc fm) : e.comments = {} → (∀ a ∈ l, Ok a) → Ok (.tuple {} false s l e fc fm)
  | dict (s l e fm) : e.comments = {} → (∀ a ∈ l, OkKV a) → Ok (.dict {} s l e fm)
  | paren (s x e fm) : e.comments = {} → Ok x → Ok (.paren {} s x e fm)
  | listCompr (p b cl fm e) : e.comments = {} → Ok b → (∀ a ∈ cl, OkClause a) → forFirst cl → clausesApart cl → Ok (.compr {} false p b cl fm e)
  | dictCompr (p b cl fm e) : e.comments = {} → OkKV b → (∀ a ∈ cl, OkClause a) → forFirst cl → clausesApart cl → Ok (.compr {} true p b cl fm e)
  | unary (p op x) : op ∈ unOps → Ok x → isCond x = false → Ok (.unary {} p op x)
  | binary (x p op lb y) : op ∈ binOps → Ok x → isCond x = false → Ok y → isCond y = false → Ok (.binary {} x p op lb y)
  | is (x p lb y) : Ok x → isCond x = false → openEnd x = false → Ok y → isCond y = false → isNot y = false →
      Ok (.binary {} x p b!"is" lb y)
  | isNot (x p lb y) : Ok x → isCond x = false → openEnd x = false → Ok y → isCond y = false → isBin y = false →
      Ok (.binary {} x p b!"is not" lb y)
  | lambda (p ps b) : (∀ a ∈ ps, OkParam false a) → Ok b → Ok (.lambda {} p ps [b])
  | cond (t i te el e) : Ok t → Ok te → Ok e → isCond e = false → Ok (.cond {} t i te el e)
  | load (p m fs ts r fc) : r.comments = {} → m.comments = {} → (m.token = [] ∨ Props.Quote.LexedToken m.token) → fs ≠ [] →
      fs.length = ts.length → (∀ n ∈ fs, n.comments = {}) → (∀ n ∈ ts, n.comments = {}) →
      (∀ q ∈ fs.zip ts, q.1.name = q.2.name ∨ Name q.2.name) → Ok (.load {} p m fs ts r fc)
/-- arguments of a call -/
inductive OkArg : Expr → Prop
  | plain (x) : Ok x → OkArg x
  | named (n p lb y) : n.comments = {} → Name n.name → Ok y → OkArg (.assign {} (.ident n) p b!"=" lb y)
  | star (p x) : Ok x → OkArg (.unary {} p b!"*" x)
  | starStar (p x) : Ok x → OkArg (.unary {} p b!"**" x)
/-- parameters of a function, with or without types -/
inductive OkParam : Bool → Expr → Prop
  | plain (ty n) : n.comments = {} → Name n.name → OkParam ty (.ident n)
  | default (ty n p lb y) : n.comments = {} → Name n.name → Ok y → OkParam ty (.assign {} (.ident n) p b!"=" lb y)
  | bare (ty p) : OkParam ty (.unary {} p b!"*" .nil)
  | star (ty p n) : n.comments = {} → Name n.name → OkParam ty (.unary {} p b!"*" (.ident n))
  | starStar (ty p n) : n.comments = {} → Name n.name → OkParam ty (.unary {} p b!"**" (.ident n))
  | typed (n t) : n.comments = {} → Name n.name → Ok t → OkParam true (.typedIdent {} n t)
  | typedDefault (n t p lb y) : n.comments = {} → Name n.name → Ok t → Ok y → OkParam true (.assign {} (.typedIdent {} n t) p b!"=" lb y)
  | typedStar (p n t) : n.comments = {} → Name n.name → Ok t → OkParam true (.unary {} p b!"*" (.typedIdent {} n t))
  | typedStarStar (p n t) : n.comments = {} → Name n.name → Ok t → OkParam true (.unary {} p b!"**" (.typedIdent {} n t))
/-- key-value pairs of a dictionary -/
inductive OkKV : Expr → Prop
  | kv (k p v) : Ok k → Ok v → OkKV (.keyValue {} k p v)
/-- clauses of a comprehension -/
inductive OkClause : Expr → Prop
  | for_ (p v i x) : OkVars v → Ok x → isCond x = false → OkClause (.forClause {} p v i x)
  | if_ (p x) : Ok x → isCond x = false → OkClause (.ifClause {} p x)
/-- loop variables -/
inductive OkVars : Expr → Prop
  | one (x) : Ok x → isPrimary x → OkVars x
  | tuple (s x y l e fc fm) : e.comments = {} → (∀ a ∈ x :: y :: l, Ok a) → (∀ a ∈ x :: y :: l, isPrimary a) →
      OkVars (.tuple {} true s (x :: y :: l) e fc fm)
/-- an expression or a tuple without parentheses; only its first element may be a conditional -/
inductive OkExpr : Expr → Prop
  | one (x) : Ok x → OkExpr x
  | tuple (s x y l e fc fm) : e.comments = {} → (∀ a ∈ x :: y :: l, Ok a) → (∀ a ∈ y :: l, isCond a = false) →
      OkExpr (.tuple {} true s (x :: y :: l) e fc fm)
end

/-- statements -/
inductive OkStmt : Expr → Prop
  | expr (x) : OkExpr x → OkStmt x
  | assign (x p op lb y) : op ∈ assignOps → OkExpr x → OkExpr y → OkStmt (.assign {} x p op lb y)
  | aug (x p op lb y) : op ∈ augOps → OkExpr x → OkExpr y → OkStmt (.binary {} x p op lb y)
  | return_ (p x) : (x.isNil = false → OkExpr x) → OkStmt (.returnS {} p x)
  | branch (t p) : t ∈ [b!"pass", b!"break", b!"continue"] → OkStmt (.branch {} t p)
  | def_ (p name ps body cp fc fm ty) : Name name → (∀ a ∈ ps, OkParam true a) → (ty.isNil = false → Ok ty) → body ≠ [] → (∀ s ∈ body, OkStmt s) →
      OkStmt (.defS {} p name ps body cp fc fm ty)
  | for_ (p v x body) : OkVars v → OkExpr x → body ≠ [] → (∀ s ∈ body, OkStmt s) → OkStmt (.forS {} p v x body)
  | if_ (p x body ep els) : ep.comments = {} → OkExpr x → body ≠ [] → (∀ s ∈ body, OkStmt s) → (∀ s ∈ els, OkStmt s) →
      OkStmt (.ifS {} p x body ep els)

/-! ## Line breaks -/

mutual
/-- No line break outside brackets: neither after an operator nor before a dot. -/
def tight : Expr → Bool
  | .dot _ x _ np _ => !differentLines np x.endPos && tight x
  | .call _ x .. => tight x
  | .index _ x .. => tight x
  | .slice _ x .. => tight x
  | .unary _ _ _ x => tight x
  | .binary _ x _ _ lb y => !lb && tight x && tight y
  | .assign _ x _ _ lb y => !lb && tight x && tight y
  | .lambda _ _ ps b => tightL ps && tightL b
  | .cond _ t _ te _ e => tight t && tight te && tight e
  | .tuple _ nb _ l .. => !nb || tightL l
  | .typedIdent _ _ t => tight t
  | .returnS _ _ x => tight x
  | _ => true
def tightL : List Expr → Bool
  | [] => true
  | x :: l => tight x && tightL l
end

mutual
/-- Outside brackets, a tuple without parentheses has no line break in it. (The printer forgets the backslash there.) -/
def tupleTight : Expr → Bool
  | .dot _ x .. => tupleTight x
  | .call _ x .. => tupleTight x
  | .index _ x .. => tupleTight x
  | .slice _ x .. => tupleTight x
  | .unary _ _ _ x => tupleTight x
  | .binary _ x _ _ _ y => tupleTight x && tupleTight y
  | .assign _ x _ _ _ y => tupleTight x && tupleTight y
  | .lambda _ _ ps b => tupleTightL ps && tupleTightL b
  | .cond _ t _ te _ e => tupleTight t && tupleTight te && tupleTight e
  | .tuple _ nb _ l .. => !nb || tightL l
  | .typedIdent _ _ t => tupleTight t
  | .returnS _ _ x => tupleTight x
  | .defS _ _ _ _ b _ _ _ t => tupleTight t && tupleTightL b
  | .forS _ _ v x b => tupleTight v && tupleTight x && tupleTightL b
  | .ifS _ _ x t _ f => tupleTight x && tupleTightL t && tupleTightL f
  | _ => true
def tupleTightL : List Expr → Bool
  | [] => true
  | x :: l => tupleTight x && tupleTightL l
end

/-! ## Trees that are the same -/

mutual
/-- The second tree is the first one, except for positions, comments, the line break and layout flags, the spelling of string literals, and parentheses
that were added. -/
inductive Same : Expr → Expr → Prop
  | added (e c s e' en fm) : Same e e' → Same e (.paren c s e' en fm)
  | nil : Same .nil .nil
  | ident (n n') : n.name = n'.name → Same (.ident n) (.ident n')
  | typedIdent (c c' n n' t t') : n.name = n'.name → Same t t' → Same (.typedIdent c n t) (.typedIdent c' n' t')
  | branch (c c' t p p') : Same (.branch c t p) (.branch c' t p')
  | literal (c c' p p' t) : Same (.literal c p t) (.literal c' p' t)
  | string (n n') : n.value = n'.value → n.triple = n'.triple → Same (.string n) (.string n')
  | call (c x p l e a b c' x' p' l' e' a' b') : Same x x' → SameL l l' → Same (.call c x p l e a b) (.call c' x' p' l' e' a' b')
  | dot (c x p q name c' x' p' q') : Same x x' → Same (.dot c x p q name) (.dot c' x' p' q' name)
  | compr (c cu p b cl fm e c' p' b' cl' fm' e') : Same b b' → SameL cl cl' → Same (.compr c cu p b cl fm e) (.compr c' cu p' b' cl' fm' e')
  | forClause (c p v i x c' p' v' i' x') : Same v v' → Same x x' → Same (.forClause c p v i x) (.forClause c' p' v' i' x')
  | ifClause (c p x c' p' x') : Same x x' → Same (.ifClause c p x) (.ifClause c' p' x')
  | keyValue (c k p v c' k' p' v') : Same k k' → Same v v' → Same (.keyValue c k p v) (.keyValue c' k' p' v')
  | dict (c s l e fm c' s' l' e' fm') : SameL l l' → Same (.dict c s l e fm) (.dict c' s' l' e' fm')
  | list (c s l e fm c' s' l' e' fm') : SameL l l' → Same (.list c s l e fm) (.list c' s' l' e' fm')
  | set (c s l e fm c' s' l' e' fm') : SameL l l' → Same (.set c s l e fm) (.set c' s' l' e' fm')
  | tuple (c nb s l e a b c' s' l' e' a' b') : SameL l l' → Same (.tuple c nb s l e a b) (.tuple c' nb s' l' e' a' b')
  | unary (c p op x c' p' x') : Same x x' → Same (.unary c p op x) (.unary c' p' op x')
  | binary (c x p op lb y c' x' p' lb' y') : Same x x' → Same y y' → Same (.binary c x p op lb y) (.binary c' x' p' op lb' y')
  | assign (c x p op lb y c' x' p' lb' y') : Same x x' → Same y y' → Same (.assign c x p op lb y) (.assign c' x' p' op lb' y')
  | paren (c s x e fm c' s' x' e' fm') : Same x x' → Same (.paren c s x e fm) (.paren c' s' x' e' fm')
  | slice (c x p fr p1 to p2 st e c' x' p' fr' p1' to' p2' st' e') : Same x x' → Same fr fr' → Same to to' → Same st st' → (p2.byte = 0 ↔ p2'.byte = 0) →
      Same (.slice c x p fr p1 to p2 st e) (.slice c' x' p' fr' p1' to' p2' st' e')
  | index (c x p y e c' x' p' y' e') : Same x x' → Same y y' → Same (.index c x p y e) (.index c' x' p' y' e')
  | lambda (c p ps b c' p' ps' b') : SameL ps ps' → SameL b b' → Same (.lambda c p ps b) (.lambda c' p' ps' b')
  | cond (c t i te el e c' t' i' te' el' e') : Same t t' → Same te te' → Same e e' → Same (.cond c t i te el e) (.cond c' t' i' te' el' e')
  | load (c p m fs ts r fc c' p' m' fs' ts' r' fc') : m.value = m'.value → m.triple = m'.triple → fs.map (·.name) = fs'.map (·.name) →
      ts.map (·.name) = ts'.map (·.name) → Same (.load c p m fs ts r fc) (.load c' p' m' fs' ts' r' fc')
  | defS (c p name ps b cp x y t c' p' ps' b' cp' x' y' t') : SameL ps ps' → SameL b b' → Same t t' →
      Same (.defS c p name ps b cp x y t) (.defS c' p' name ps' b' cp' x' y' t')
  | returnS (c p x c' p' x') : Same x x' → Same (.returnS c p x) (.returnS c' p' x')
  | forS (c p v x b c' p' v' x' b') : Same v v' → Same x x' → SameL b b' → Same (.forS c p v x b) (.forS c' p' v' x' b')
  | ifS (c p x t ep f c' p' x' t' ep' f') : Same x x' → SameL t t' → SameL f f' → Same (.ifS c p x t ep f) (.ifS c' p' x' t' ep' f')
/-- the same for lists -/
inductive SameL : List Expr → List Expr → Prop
  | nil : SameL [] []
  | cons (x x' l l') : Same x x' → SameL l l' → SameL (x :: l) (x' :: l')
end

end Verif.Round
