import Verif.Props.RoundSpec
/-
C70: formatting twice gives what formatting once gives. The conditions.
-/
namespace Verif.Again
open Verif Verif.Syntax Verif.Parser

mutual
/-- `p` holds of the expression or statement and of all the expressions and statements in it -/
def every (p : Expr → Bool) : Expr → Bool
  | .nil => true
  | .commentBlock c s => p (.commentBlock c s)
  | .ident n => p (.ident n)
  | .typedIdent c n t => p (.typedIdent c n t) && every p t
  | .branch c t s => p (.branch c t s)
  | .literal c s t => p (.literal c s t)
  | .string n => p (.string n)
  | .call c x s l e a b => p (.call c x s l e a b) && every p x && everyL p l
  | .dot c x d n s => p (.dot c x d n s) && every p x
  | .compr c cu s b cl f e => p (.compr c cu s b cl f e) && every p b && everyL p cl
  | .forClause c s v i x => p (.forClause c s v i x) && every p v && every p x
  | .ifClause c s x => p (.ifClause c s x) && every p x
  | .keyValue c k s v => p (.keyValue c k s v) && every p k && every p v
  | .dict c s l e f => p (.dict c s l e f) && everyL p l
  | .list c s l e f => p (.list c s l e f) && everyL p l
  | .set c s l e f => p (.set c s l e f) && everyL p l
  | .tuple c n s l e a b => p (.tuple c n s l e a b) && everyL p l
  | .unary c s op x => p (.unary c s op x) && every p x
  | .binary c x s op l y => p (.binary c x s op l y) && every p x && every p y
  | .assign c x s op l y => p (.assign c x s op l y) && every p x && every p y
  | .paren c s x e f => p (.paren c s x e f) && every p x
  | .slice c x s f c1 t c2 st e => p (.slice c x s f c1 t c2 st e) && every p x && every p f && every p t && every p st
  | .index c x s y e => p (.index c x s y e) && every p x && every p y
  | .lambda c s ps b => p (.lambda c s ps b) && everyL p ps && everyL p b
  | .cond c t i te el e => p (.cond c t i te el e) && every p t && every p te && every p e
  | .load c s m f t r fc => p (.load c s m f t r fc)
  | .defS c s n ps b cp a d t => p (.defS c s n ps b cp a d t) && everyL p ps && everyL p b && every p t
  | .returnS c s x => p (.returnS c s x) && every p x
  | .forS c s v x b => p (.forS c s v x b) && every p v && every p x && everyL p b
  | .ifS c s x t e f => p (.ifS c s x t e f) && every p x && everyL p t && everyL p f
  | .file c l => p (.file c l) && everyL p l
/-- the same for a list -/
def everyL (p : Expr → Bool) : List Expr → Bool
  | [] => true
  | x :: l => every p x && everyL p l
end

/-- A load statement written on one line names its module without a line break: neither the literal, nor the value of a
literal with three quotes, which is printed with its line breaks. -/
def plainLoad : Expr → Bool
  | .load _ _ m _ _ _ fc => !fc || (!m.token.contains 10 && (!m.triple || !m.value.contains 10))
  | _ => true

end Verif.Again
