preds=eval(open('preds.txt').read()); ntn=eval(open('ntnum.txt').read())
rows=[preds[i:i+16] for i in range(0,len(preds),16)]
ptxt='  ['+',\n   '.join('['+', '.join(str(p) for p in r)+']' for r in rows)+']'
nt='\n'.join('  | .%s => %d'%x for x in ntn)
open('/verif/lean/Verif/Proofs/LRCheck.lean','w').write('''import Verif.Model.Parser
import Verif.Model.Grammar
/-
Finite facts about the parser tables, checked by the kernel: which states can be below a state on the stack, and that the stack
above holds the right-hand side of a production whenever it is reduced.
-/
namespace Verif.Parser
open Verif Verif.Lexer Verif.LR Verif.Grammar

/-- number of a nonterminal in the tables -/
def ntNum : NT → Nat
%s

/-- the symbol number a state is entered with (`yyChk`): tokens positive, nonterminals negative -/
def symNum : Sym → Int
  | .t k => (tokNum k : Int)
  | .n a => -(ntNum a : Int)

/-- the states that can be directly below a state, in rows of 16 -/
def predRows : List (List (List Nat)) :=
%s

def preds (s : Nat) : List Nat := (predRows.getD (s / 16) []).getD (s %% 16) []

/-- the productions a state can reduce -/
def cand (s : Nat) : List Nat :=
  if look yyDef s = -2 then (if s = 79 then [55, 128] else if s = 169 then [125, 126] else []) else if look yyDef s = 0 then [] else [(look yyDef s).toNat]

/-- `n` is entered from `s` with symbol `x` -/
def edge (s n : Nat) (x : Int) : Bool := decide (n < 267) && (preds n).contains s && decide (look yyChk n = x)

def checkAct (s t : Nat) : Bool :=
  match action s t with
  | .shift n => edge s n t
  | .reduce r => (cand s).contains r
  | _ => true

/-- all `n < k` satisfy `p` -/
def allBelow (p : Nat → Bool) : Nat → Bool
  | 0 => true
  | k + 1 => p k && allBelow p k

theorem allBelow_spec (p : Nat → Bool) : ∀ k, allBelow p k = true → ∀ n, n < k → p n = true := by
  intro k
  induction k with
  | zero => intro _ n h; exact absurd h (Nat.not_lt_zero _)
  | succ k ih =>
    intro h n hn
    simp only [allBelow, Bool.and_eq_true] at h
    rcases Nat.lt_succ_iff_lt_or_eq.1 hn with h' | rfl
    · exact ih h.2 n h'
    · exact h.1

/-- going down the stack from the states `ss` along the symbols `xs` (last symbol first): `f` holds for what is below -/
def descend (f : Nat → Bool) : List Sym → Nat → Bool
  | [], s => f s
  | x :: xs, s => decide (look yyChk s = symNum x) && (preds s).all (descend f xs)

def production (r : Nat) : Option (NT × List Sym) := if r = 0 then none else productions[r - 1]?

def checkReduce (s r : Nat) : Bool :=
  match production r with
  | none => false
  | some (a, rhs) =>
    decide ((look yyR2 r).toNat = rhs.length) &&
      descend (fun b => if r = 1 then b == 0 else edge b (goto_ b r) (-(ntNum a : Int))) rhs.reverse s

theorem check_act : allBelow (fun s => allBelow (checkAct s) 64) 267 = true := by decide +kernel

theorem check_reduce : allBelow (fun s => (cand s).all (checkReduce s)) 267 = true := by decide +kernel

end Verif.Parser
'''%(nt,ptxt))
